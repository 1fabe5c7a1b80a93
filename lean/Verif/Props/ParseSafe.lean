import Verif.Lemmas.ParseSafe
import Verif.Props.Safety
import Verif.Props.ParseFc
/-! # C70: parsing has defined behaviour if the templates are well-behaved -/

namespace Selint
open Spec

/-! ## Being well-behaved is a property of the text -/

mutual
theorem linesFacts_plain_eq (mod : Str) (i : Option Str) (ls : Lines) :
    linesFacts mod i ls.plain = linesFacts mod i ls := by
  cases ls with
  | one l => simp only [Lines.plain, linesFacts, lineFacts_plain_eq mod i l]
  | more ls l => simp only [Lines.plain, linesFacts, linesFacts_plain_eq mod i ls, lineFacts_plain_eq mod i l]
theorem lineFacts_plain_eq (mod : Str) (i : Option Str) (l : Line) :
    lineFacts mod i l.plain = lineFacts mod i l := by
  cases l with
  | bare s => simp only [Line.plain, lineFacts, stmtFacts_plain_eq mod i s]
  | withCommand s c => simp only [Line.plain, lineFacts, stmtFacts_plain_eq mod i s]
theorem stmtFacts_plain_eq (mod : Str) (i : Option Str) (s : Stmt) :
    stmtFacts mod i s.plain = stmtFacts mod i s := by
  cases s with
  | silent | simple | optionalEmpty | genRequire | genRequireUnquoted | require | define => rfl
  | optional line cmd body => simp only [Stmt.plain, stmtFacts, linesFacts_plain_eq mod none body]
  | optionalElse line cmd body l els =>
    simp only [Stmt.plain, stmtFacts, linesFacts_plain_eq mod none body, linesFacts_plain_eq mod none els]
  | ifdef line negated cond args => simp only [Stmt.plain, stmtFacts, argsFacts_plain_eq mod args]
  | ifelse line args => simp only [Stmt.plain, stmtFacts, argsFacts_plain_eq mod args]
  | userdebugOrEng body => simp only [Stmt.plain, stmtFacts, linesFacts_plain_eq mod i body]
  | tunable line quoted cond args => simp only [Stmt.plain, stmtFacts, argsFacts_plain_eq mod args]
  | boolean line cmd cond body => simp only [Stmt.plain, stmtFacts, linesFacts_plain_eq mod none body]
  | booleanElse line cmd cond body els =>
    simp only [Stmt.plain, stmtFacts, linesFacts_plain_eq mod none body, linesFacts_plain_eq mod none els]
theorem argsFacts_plain_eq (mod : Str) (as : M4Args) : argsFacts mod as.plain = argsFacts mod as := by
  cases as with
  | one line a => simp only [M4Args.plain, argsFacts, argFacts_plain_eq mod a]
  | more as line a => simp only [M4Args.plain, argsFacts, argsFacts_plain_eq mod as, argFacts_plain_eq mod a]
theorem argFacts_plain_eq (mod : Str) (a : M4Argument) : argFacts mod a.plain = argFacts mod a := by
  cases a with
  | quoted body => simp only [M4Argument.plain, argFacts, linesFacts_plain_eq mod none body]
  | _ => rfl
end

theorem ifDefFacts_plain_eq (mod : Str) (d : IfDef) : ifDefFacts mod d.plain = ifDefFacts mod d := by
  obtain ⟨line, tpl, name, cmd, body⟩ := d
  cases body with
  | none => rfl
  | some b => simp only [IfDef.plain, Option.map_some, ifDefFacts, linesFacts_plain_eq]; rfl

theorem ifDefs_plain_eq (d : IfDef) (ls : List IfLine) :
    ifDefs d.plain (ls.map IfLine.plain) = (ifDefs d ls).map IfDef.plain := by
  simp only [ifDefs, List.map_cons, List.cons.injEq, true_and]
  induction ls with
  | nil => rfl
  | cons l ls ih =>
    cases l with
    | defn e => simp [IfLine.plain, ih]
    | comment n => simp [IfLine.plain, ih]

theorem tameFile_plain (arity : Str → Nat) (f : SourceFile) : TameFile arity f.plain ↔ TameFile arity f := by
  cases f with
  | te cs h body => simp only [SourceFile.plain, TameFile, linesFacts_plain_eq]
  | iface cs d ls =>
    simp only [SourceFile.plain, TameFile, ifDefs_plain_eq, List.forall_mem_map, ifDefFacts_plain_eq]
    rfl
  | _ => rfl

/-- **C70.** Whether a text is well-behaved does not depend on how it is derived. -/
theorem C70_text {arity : Str → Nat} {s : Str} {f g : SourceFile} (hf : ParsesTo s f) (hg : ParsesTo s g)
    (h : TameFile arity f) : TameFile arity g :=
  (tameFile_plain arity g).1 (C68_unambiguous_text hf hg ▸ (tameFile_plain arity f).2 h)

/-! ## One file -/

/-- **C70 (file).** A text whose calls and templates fit together is parsed without undefined
behaviour, in whatever kind of file it is and whatever the module, and the tables remain
well-behaved. -/
theorem C70_file {arity : Str → Nat} {s : Str} {f : SourceFile} (hp : ParsesTo s f) (hf : TameFile arity f)
    {m : Maps} (hm : TameTables arity m) (expected : PlainFlavor) (mod : Str) :
    ∃ r, f.exec expected mod m = .ok r ∧ ∀ st, r = some st → TameTables arity st.maps :=
  SourceFile.exec_defined hp.tokens.1 hm hf

/-! ## The run -/

/-- The parse of a file with these tables has defined behaviour. -/
def Spec.DefinedParse (src : Sources) (name : Str) (m : Maps) : NodeFlavor → Prop
  | .teFile => ∃ r, parseOneFile src name .teFile m = .ok r
  | .ifFile => ∃ r, parseOneFile src name .ifFile m = .ok r
  | .fcFile => ∃ r, parseFcFile src.fcMacros (src.fcLines name) = .ok r
  | _ => True

/-- The parses of a log have defined behaviour, each with the tables of its moment. -/
def Spec.DefinedParses (src : Sources) (prog : Program CheckFn (Res Statics)) (log : List Event) (m : Maps) : Prop :=
  ∀ pre a n fl ast post, log = pre ++ .parse a n fl ast :: post → DefinedParse src n (tablesOf prog pre m) fl

/-- The conditions on the sources: the calls and templates of all texts fit together, and the
lines of the fc files are ones on which their parser stays within the line (see C36). -/
structure Spec.TameSources (arity : Str → Nat) (src : Sources) : Prop where
  texts : ∀ name s f, src.text name = some s → ParsesTo s f → TameFile arity f
  lines : ∀ name ls, src.fcLines name = some ls → ∀ i ∈ ls,
    IgnoredFcLine src.fcMacros i.len i.text ∨ Tame i.text

section
variable {arity : Str → Nat} {src : Sources} (hs : TameSources arity src)

include hs in
theorem parseOneFile_safe {name : Str} (hn : 3 ≤ (basename name).length) {m : Maps} (hm : TameTables arity m)
    (flavor : PlainFlavor) :
    (∃ r, parseOneFile src name flavor m = .ok r) ∧
      TameTables arity (parseResult m (parseOneFile src name flavor m)).2 := by
  unfold parseOneFile moduleOfFile
  rw [if_pos hn, Res.bind_ok]
  cases h2 : src.text name with
  | none => exact ⟨⟨_, rfl⟩, hm⟩
  | some s =>
    simp only
    cases h3 : (lexFile s).bind pFile with
    | none => exact ⟨⟨_, rfl⟩, hm⟩
    | some f =>
      simp only
      obtain ⟨toks, h4, h5⟩ := Option.bind_eq_some_iff.1 h3
      have hp : ParsesTo s f := ⟨toks, h4, C68_sound h5⟩
      obtain ⟨r, h6, h7⟩ := C70_file hp (hs.texts _ _ _ h2 hp) hm flavor (basename name).dropLast.dropLast.dropLast
      rw [h6, Res.bind_ok]
      cases r with
      | none => exact ⟨⟨_, rfl⟩, hm⟩
      | some st => exact ⟨⟨_, rfl⟩, h7 st rfl⟩

variable (suppress : Bool) (config : ConfigCheckData)

include hs in
theorem parser_safe {name : Str} (hn : 3 ≤ (basename name).length) {m : Maps} (hm : TameTables arity m)
    (fl : NodeFlavor) :
    DefinedParse src name m fl ∧ TameTables arity ((wholeProgram src suppress config).parser fl name m).2 := by
  by_cases h1 : fl = .fcFile
  · subst h1
    constructor
    · show ∃ r, _
      cases h : src.fcLines name with
      | none => exact ⟨none, rfl⟩
      | some ls =>
        obtain ⟨ns, h'⟩ := C37_parses src.fcMacros ls (hs.lines _ _ h)
        exact ⟨some ns, h'⟩
    · simp only [Program.parser, wholeProgram, if_true]
      split <;> exact hm
  · by_cases h2 : fl = .teFile
    · subst h2; exact parseOneFile_safe hs hn hm .teFile
    · by_cases h3 : fl = .ifFile
      · subst h3; exact parseOneFile_safe hs hn hm .ifFile
      · constructor
        · unfold DefinedParse; split <;> trivial
        · simp only [Program.parser, if_neg h1]
          simp only [wholeProgram]
          exact hm

include hs in
theorem tablesOf_tame (ps : List Event) {m : Maps} (hm : TameTables arity m)
    (hn : ∀ a n fl ast, Event.parse a n fl ast ∈ ps → 3 ≤ (basename n).length) :
    TameTables arity (tablesOf (wholeProgram src suppress config) ps m) := by
  induction ps generalizing m with
  | nil => exact hm
  | cons ev ps ih =>
    have hn' : ∀ a n fl ast, Event.parse a n fl ast ∈ ps → 3 ≤ (basename n).length :=
      fun a n fl ast h => hn a n fl ast (.tail _ h)
    cases ev with
    | parse a n fl ast => exact ih (parser_safe hs suppress config (hn a n fl ast (.head _)) hm fl).2 hn'
    | mark asts =>
      refine ih ?_ hn'
      obtain ⟨m', h1, -, h2⟩ := C22_least_fixpoint asts m
      rw [h1, Option.getD_some, h2]
      exact ⟨hm.decls, hm.calls⟩
    | check a n d t tb => exact ih hm hn'
    | cleanup => exact ih hm hn'

include hs in
/-- **C70.** A run over any number of files whose calls and templates fit together, starting with
tables that fit, parses all of its files without undefined behaviour: te, if and fc files,
including all template expansions. -/
theorem C70_run {ls : Lists} {te ifs fc cte cif : List Nat} {s : RunnerState CheckFn (Res Statics)}
    (hw : World s.heap ls te ifs fc cte cif) (hlog : s.log = [])
    (hn : ∀ c ∈ s.heap, 3 ≤ (basename c.filename).length) (hm : TameTables arity s.maps) :
    ∃ e s', runAnalysis (wholeProgram src suppress config) ls s = some (e, s') ∧
      DefinedParses src (wholeProgram src suppress config) s'.log s.maps := by
  obtain ⟨e, s', ps, cs, h1, h2⟩ := runAnalysis_ok (prog := wholeProgram src suppress config) s hw
  refine ⟨e, s', h1, fun pre a n fl ast post hl => ?_⟩
  have hcs : ∀ ev ∈ cs, Event.IsCheck ev := by
    rcases h2.result with ⟨-, -, -, -, h⟩ | ⟨-, rfl, -⟩
    · intro ev hev
      obtain ⟨a, n, fl, ast, rfl, -⟩ := h ev hev
      trivial
    · nofun
  have key : ∀ a n fl ast, Event.parse a n fl ast ∈ s'.log → 3 ≤ (basename n).length := by
    intro a n fl ast h
    rw [h2.log, hlog] at h
    simp only [List.nil_append, List.mem_append, List.mem_singleton] at h
    rcases h with (h | h) | h
    · obtain ⟨-, -, ⟨c, hc, rfl⟩, -⟩ := h2.noCheck _ h
      exact hn c (List.mem_of_getElem? hc)
    · exact (hcs _ h).elim
    · cases h
  rw [hl] at key
  refine (parser_safe hs suppress config (key a n fl ast (by simp)) ?_ fl).1
  exact tablesOf_tame hs suppress config pre hm fun a n fl ast h => key a n fl ast (by simp [h])

end

/-! ## C70 is about something -/

/-- A template that declares a type and calls an interface. -/
def templateText : Str :=
  cs!"template(`foo_template',`\n\ttype $1_t;\n\tfoo_use($1_t, $2)\n')\n"

/-- Its derivation. -/
def templateFile : SourceFile :=
  .iface [] ⟨1, true, cs!"foo_template", none, some (.more
    (.one (.bare (.simple 2 (.decl (.type cs!"$1_t")))))
    (.bare (.simple 3 (.call cs!"foo_use" (some ⟨.xperm (.item (.word cs!"$1_t")),
      [.comma (.xperm (.item (.word cs!"$2")))]⟩)))))⟩ []

/-- A te file that calls it. -/
def callerText : Str := cs!"policy_module(foo, 1.0)\nfoo_template(bar, baz)\n"

/-- Its derivation. -/
def callerFile : SourceFile :=
  .te [] ⟨1, cs!"foo", true, false, cs!"1.0"⟩ (.one (.bare (.simple 2 (.call cs!"foo_template"
    (some ⟨.xperm (.item (.word cs!"bar")), [.comma (.xperm (.item (.word cs!"baz")))]⟩)))))

theorem template_parses : ParsesTo templateText templateFile :=
  ⟨(lexFile templateText).getD [], by decide +kernel, C68_sound rfl⟩

theorem caller_parses : ParsesTo callerText callerFile :=
  ⟨(lexFile callerText).getD [], by decide +kernel, C68_sound rfl⟩

/-- The template takes two arguments. -/
def exampleArity (n : Str) : Nat := if n = cs!"foo_template" then 2 else 0

/-- A directory with the two files. -/
def twoFiles : Sources where
  text := fun name => if name = cs!"foo.if" then some templateText
    else if name = cs!"foo.te" then some callerText else none
  fcLines := fun _ => none
  fcMacros := []

theorem template_tame : TameFile exampleArity templateFile := by
  have h1 : Fits 2 cs!"$1_t" :=
    ⟨[1], .ref (ds := cs!"1") (s := cs!"_t") ⟨by decide, by decide, by decide, by decide⟩ (by decide)
      (.char (by decide) (.char (by decide) .nil)), by decide, by decide⟩
  have h2 : Fits 2 cs!"$2" :=
    ⟨[2], .ref (ds := cs!"2") (s := []) ⟨by decide, by decide, by decide, by decide⟩ (by decide) .nil,
      by decide, by decide⟩
  intro mod d hd f hf
  obtain rfl := List.mem_singleton.1 hd
  have hf' : f ∈ [Fact.declares .type cs!"$1_t", .calls ⟨cs!"foo_use", [(cs!"$1_t", false), (cs!"$2", false)]⟩ none] := hf
  simp only [List.mem_cons, List.not_mem_nil, or_false] at hf'
  have ha : exampleArity cs!"foo_template" = 2 := rfl
  rcases hf' with rfl | rfl
  · rintro t ⟨⟩; exact h1
  · refine ⟨by decide, ?_⟩
    rintro t ⟨⟩
    refine ⟨by decide, fun a h => ?_⟩
    simp only [List.mem_cons, List.not_mem_nil, or_false] at h
    rcases h with rfl | rfl
    · exact h1
    · exact h2

theorem caller_tame : TameFile exampleArity callerFile := by
  intro mod f hf
  obtain rfl := List.mem_singleton.1 hf
  exact ⟨by decide, nofun⟩

theorem twoFiles_tame : TameSources exampleArity twoFiles where
  texts := by
    intro name s f h hp
    simp only [twoFiles] at h
    split at h
    · cases h; exact C70_text template_parses hp template_tame
    · split at h
      · cases h; exact C70_text caller_parses hp caller_tame
      · cases h
  lines := nofun

/-- The lists with `foo.if` and `foo.te`. -/
def twoState : RunnerState CheckFn (Res Statics) :=
  { oneState with heap := [⟨cs!"foo.if", [], none⟩, ⟨cs!"foo.te", [], none⟩] }

/-- The conditions of C70 hold for the run over these two files, and the call is expanded: the
te file is found to declare `bar_t`. -/
example : TameSources exampleArity twoFiles ∧
    World twoState.heap ⟨⟨some 1, some 1⟩, ⟨some 0, some 0⟩, ⟨none, none⟩, ⟨none, none⟩, ⟨none, none⟩⟩
      [1] [0] [] [] [] ∧
    twoState.log = [] ∧ (∀ c ∈ twoState.heap, 3 ≤ (basename c.filename).length) ∧
    TameTables exampleArity twoState.maps ∧
    (let r := (wholeProgram twoFiles false ⟨.ref, [], false, false, []⟩)
     ((r.parser .teFile cs!"foo.te" (r.parser .ifFile cs!"foo.if" {}).2).2.lookUpDecl cs!"bar_t" .type) =
      some cs!"foo") :=
  ⟨twoFiles_tame, ⟨⟨⟨rfl, _, rfl, rfl⟩, rfl⟩, ⟨⟨rfl, _, rfl, rfl⟩, rfl⟩, ⟨rfl, rfl⟩, ⟨rfl, rfl⟩, ⟨rfl, rfl⟩, by simp⟩,
    rfl, by decide +kernel, ⟨nofun, nofun⟩, by decide +kernel⟩

/-! ## The condition is needed -/

/-- A directory with a template that refers twice to its argument, and a te file that calls it. -/
def twiceFiles : Sources where
  text := fun name =>
    if name = cs!"foo.if" then some cs!"template(`foo_template',`\n\ttype $1_$1_t;\n')\n"
    else if name = cs!"foo.te" then some cs!"policy_module(foo, 1.0)\nfoo_template(application)\n" else none
  fcLines := fun _ => none
  fcMacros := []

/-- **C70, the condition is needed.** Both files are accepted by the grammar; parsing the second
after the first writes outside a buffer. -/
theorem C70_false_twice :
    let r := wholeProgram twiceFiles false ⟨.ref, [], false, false, []⟩
    (r.parser .ifFile cs!"foo.if" {}).1 ≠ [] ∧
    ¬DefinedParse twiceFiles cs!"foo.te" (r.parser .ifFile cs!"foo.if" {}).2 .teFile := by
  intro r
  have h : (parseOneFile twiceFiles cs!"foo.te" .teFile (r.parser .ifFile cs!"foo.if" {}).2 matches .ub) = true := by
    decide +kernel
  have h1 : (r.parser .ifFile cs!"foo.if" {}).1.isEmpty = false := by decide +kernel
  constructor
  · intro e; rw [e] at h1; cases h1
  · rintro ⟨x, hx⟩; rw [hx] at h; cases h

end Selint
