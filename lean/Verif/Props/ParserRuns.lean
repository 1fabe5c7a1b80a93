import Verif.Props.ParseMemory
import Verif.Props.ParserMemory
import Verif.Lemmas.LrFiles
/-!
# C92: the parser can read every file of the grammar

The productions of parse.y and bison's stack (`Model/Lr.lean`), and derivations with their actions
(`Model/Grammar.lean`, `Model/ParseFunctions.lean`) are two descriptions of one parser.
-/

namespace Selint
open Spec Lr

theorem SourceFile.run_root {f : SourceFile} {e : PlainFlavor} {mod : Str} {maps : Maps}
    {m₀ : Mem} {ast : Addr} {ms : MState} {t : Sptables}
    (h : f.run e mod maps m₀ = .ok (ast, ms, t)) : ast = root m₀ := by
  cases f <;> simp only [SourceFile.run] at h
  case empty =>
    obtain ⟨_, -, h⟩ := Res.bind_eq_ok h
    obtain ⟨_, -, h⟩ := Res.bind_eq_ok h
    cases h
    rfl
  case comments =>
    obtain ⟨_, -, h⟩ := Res.bind_eq_ok h
    cases h
    rfl
  all_goals
    obtain ⟨_, -, h⟩ := Res.bind_eq_ok h
    obtain ⟨_, -, h⟩ := Res.bind_eq_ok h
    obtain ⟨_, -, h⟩ := Res.bind_eq_ok h
    cases h
    rfl

/-- For a file with a derivation that the functional model accepts there are moves of the parser
that read just its tokens and end with the file accepted. The tree is then the one of the
functional model, and so are the tables. -/
theorem C92_parses {f : SourceFile} {expected : PlainFlavor} {mod : Str} {maps : Maps}
    {st : PState} (h : f.exec expected mod maps = .ok (some st)) {m₀ : Mem} (hb : Bounded m₀) :
    ∃ c T L G, ParserReaches (start m₀ expected mod maps) f.tokens c ∧
      entries c = [⟨.t .eof, .none⟩, ⟨.n .selinuxFile, .none⟩] ∧
      Parsed f maps m₀ st (root m₀) c.ms c.tabs T L G := by
  obtain ⟨ast, ms, t, T, L, G, hr, hp⟩ := C85_parse h hb
  have hs := f.steps (SourceFile.exec_suits h) hr ParserReaches.refl
  rw [List.nil_append] at hs
  have he := hs.move (mv := .read none)
    (c' := ⟨expected, [⟨.n .selinuxFile, .none⟩], some ⟨.t .eof, .none⟩, ms, t⟩) rfl
  rw [show f.tokens ++ tokenOf (.read none) = f.tokens from List.append_nil _] at he
  refine ⟨_, T, L, G, he, rfl, ?_⟩
  rw [← SourceFile.run_root hr]
  exact hp

/-- A te file with a command and a block. -/
example : ∃ st, oneCommand.exec .teFile cs!"foo" {} = .ok (some st) ∧ 15 < oneCommand.tokens.length ∧
    exceptionsBelow st.loc.unzip = 1 :=
  ⟨_, by with_unfolding_all rfl, by decide, by with_unfolding_all rfl⟩

/-- A support file whose two lists are made. -/
example : ∃ st, twoMacros.exec .sptFile cs!"m" {} = .ok (some st) :=
  ⟨_, by with_unfolding_all rfl⟩

end Selint
