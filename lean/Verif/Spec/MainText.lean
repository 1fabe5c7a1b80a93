import Verif.Spec.ScanText
import Verif.Spec.Selection
/-!
# What silence means
-/

namespace Selint
namespace Spec

/-- What is missing for a check that cannot be performed. -/
def lack (m : Maps) (r : CheckRow) : Str :=
  if r.fn = .unknownClass then cs!"class" else if m.permmacros = [] then cs!"permission macro" else cs!"permission"

/-- The note about a check that cannot be performed. -/
def notPerformed (color : Bool) (m : Maps) (r : CheckRow) : Str :=
  Label.note.shown color ++ (cs!": Check " ++ r.id ++ cs!" is not performed because no " ++ lack m r ++
    cs!" has been parsed.\n")

/-- A check is asked for: it is enabled and not below the level. -/
def AskedFor (st : Settings) (r : CheckRow) : Prop :=
  atLeast r.sev st.severity = true ∧ isCheckEnabled r.id st.enableConf = true

/-- All that can be said about a run in which nothing is worth a word: its settings are `st`, the tables after the support
files have been read are `m`. -/
structure AllWell (w : Machine) (args : List Opt) (paths : List Str) (st : Settings) (m : Maps) : Prop where
  /-- Neither progress nor a summary is asked for. -/
  plain : .verbose ∉ args ∧ st.opts.summaryFlag = false
  /-- In source mode directories are searched. -/
  searched : st.opts.sourceFlag = true → .recursive ∈ args
  /-- Every id is that of a check. -/
  ids : ∀ x ∈ switched w.config args, isValidCheck (some x.1) ≠ .ok false
  /-- Without `-r` every path is named like a policy file or support file. -/
  named : .recursive ∉ args → ∀ p ∈ paths, ¬ PlainDir st.opts.sourceFlag p (baseName p)
  /-- In source mode the support files were found and read. -/
  support : st.opts.sourceFlag = true → ∃ av mc ops m₁ m₂,
    (collect w st paths).accessVectors = some av ∧ (collect w st paths).modulesConf = some mc ∧
    (collect w st paths).objPermSets = some ops ∧
    loadSupportFile w .avFile av (collect w st paths).maps = .ok m₁ ∧ loadModules w mc m₁ = .ok m₂ ∧
    GoodSupport w .avFile (collect w st paths).maps av ∧ GoodModules w m₁ mc ∧ GoodSupport w .sptFile m₂ ops
  /-- Otherwise the kernel offers permissions. -/
  kernel : st.opts.sourceFlag = false → ∃ fs, w.kernel = some fs ∧ HasPerm cs!"class" fs
  /-- Every check that is asked for is performed. -/
  performed : ∀ r ∈ checkTable, AskedFor st r → r.needs m = true

end Spec
end Selint
