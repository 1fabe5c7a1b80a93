import Verif.Model.Main
import Verif.Spec.Config
/-! # Specification of the command line -/

namespace Selint.Spec

/-- Options that end the program at once, with the exit status: help and version normally,
malformed arguments and unknown options with EX_USAGE (64). -/
def optStop : Opt → Option Nat
  | .help => some 0
  | .version => some 0
  | .unknown => some 64
  | .color a => if a = cs!"on" ∨ a = cs!"off" ∨ a = cs!"auto" then none else some 64
  | .level a => if ∃ c ∈ cs!"CSWEF", a.head? = some c then none else some 64
  | _ => none

/-- The argument of the last occurrence of an option. -/
def lastArg {α : Type} (f : Opt → Option α) (args : List Opt) : Option α :=
  (args.filterMap f).getLast?

/-- The settings an option list describes. -/
def optionsOf (args : List Opt) : Options where
  severity := lastArg (fun | .level a => a.head? | _ => none) args
  configFile := lastArg (fun | .config a => some a | _ => none) args
  sourceFlag := args.any fun | .source => true | .context _ => true | _ => false
  recursiveScan := decide (Opt.recursive ∈ args)
  onlyEnabled := decide (Opt.onlyEnabled ∈ args)
  summaryFlag := decide (Opt.summary ∈ args) || decide (Opt.summaryOnly ∈ args)
  suppressOutput := decide (Opt.summaryOnly ∈ args)
  failOnFinding := decide (Opt.fail ∈ args)
  scanHiddenDirs := decide (Opt.scanHiddenDirs ∈ args)
  contextPaths := args.filterMap fun | .context a => some a | _ => none
  color := (lastArg (fun | .color a => some (if a = cs!"on" then 2 else if a = cs!"off" then 1 else 0)
                         | _ => none) args).getD 0
  clDisabled := args.filterMap fun | .disable a => some a | _ => none
  clEnabled := args.filterMap fun | .enable a => some a | _ => none
  verbose := decide (Opt.verbose ∈ args)

/-- The configuration file named last on the command line is unreadable. -/
def NamedConfigUnreadable (w : ConfigWorld) (o : Options) : Prop :=
  ∃ f, o.configFile = some f ∧ w.readable f = false

/-- The configuration file in effect: the named one, else the default one if readable. -/
def effectiveConfig (w : ConfigWorld) (o : Options) : Option Str :=
  match o.configFile with
  | some f => some f
  | none => if w.readable w.defaultPath then some w.defaultPath else none

/-- The configuration file in effect has a syntax error or an invalid setting. -/
def ConfigRejected (w : ConfigWorld) (o : Options) : Prop :=
  ∃ f, effectiveConfig w o = some f ∧ ∀ cfg, w.contents f = some cfg → ¬ ValidConfig cfg

/-- Does the path end in the suffix, with something before it? -/
def HasSuffix (suf path : Str) : Prop := ∃ base, base ≠ [] ∧ path = base ++ suf

/-- A hidden directory: the name starts with a dot and is neither `.` nor starts with `..`. -/
def Hidden (name : Str) : Prop := ∃ c rest, name = '.' :: c :: rest ∧ c ≠ '.'

instance (n : Str) : Decidable (Hidden n) :=
  match n with
  | [] => isFalse (by rintro ⟨c, r, h, _⟩; simp at h)
  | [a] => isFalse (by rintro ⟨c, r, h, _⟩; simp at h)
  | a :: c :: r =>
    if h : a = '.' ∧ c ≠ '.' then isTrue ⟨c, r, by rw [h.1], h.2⟩
    else isFalse (by rintro ⟨c', r', h1, h2⟩; simp at h1; exact h ⟨h1.1, by rw [h1.2.1]; exact h2⟩)

instance (s p : Str) : Decidable (HasSuffix s p) :=
  decidable_of_iff (s <:+ p ∧ s ≠ p) (by
    constructor
    · rintro ⟨⟨b, rfl⟩, h⟩
      exact ⟨b, fun hb => by subst hb; exact h rfl, rfl⟩
    · rintro ⟨b, hb, rfl⟩
      refine ⟨⟨b, rfl⟩, fun h => hb ?_⟩
      have := congrArg List.length h
      simp at this
      exact this)

mutual
/-- The files below an entry that are not inside a hidden directory (all files if
`scanHidden`), in directory order. -/
def visibleFiles (scanHidden : Bool) (path name : Str) : Fs → List Str
  | .file => [path]
  | .dir es => if Hidden name ∧ scanHidden = false then [] else visibleFilesIn scanHidden path es
/-- The same for the entries of a directory. -/
def visibleFilesIn (scanHidden : Bool) (dirPath : Str) : FsList → List Str
  | .nil => []
  | .cons n fs rest =>
    visibleFiles scanHidden (joinPath dirPath n) n fs ++ visibleFilesIn scanHidden dirPath rest
end

/-- A name that the scan does not mistake for a policy or support file. -/
def PlainDir (source : Bool) (path name : Str) : Prop :=
  ¬ HasSuffix cs!".te" path ∧ ¬ HasSuffix cs!".if" path ∧ ¬ HasSuffix cs!".fc" path ∧
  (source = true → name ≠ cs!"modules.conf" ∧ name ≠ cs!"obj_perm_sets.spt" ∧
    name ≠ cs!"access_vectors")

mutual
/-- No directory is named like a policy or support file. -/
def PlainDirs (source : Bool) (path name : Str) : Fs → Prop
  | .file => True
  | .dir es => PlainDir source path name ∧ PlainDirsIn source path es
/-- The same for the entries of a directory. -/
def PlainDirsIn (source : Bool) (dirPath : Str) : FsList → Prop
  | .nil => True
  | .cons n fs rest => PlainDirs source (joinPath dirPath n) n fs ∧ PlainDirsIn source dirPath rest
end

end Selint.Spec
