import Verif.Lemmas.RunSafe
import Verif.Lemmas.Checkable
import Verif.Props.Dispatch
import Verif.Props.Runner
import Verif.Props.Parser
/-! # C67: running the checks has defined behaviour -/

namespace Selint
open Spec

/-! ## One file -/

/-- **C67 (file).** Whatever the configuration and the tables without circular permission
macros: running the registered checks over the tree of a parsed file has defined behaviour, and
the only internal errors are the two known ones. -/
theorem C67_file {m : Maps} (hc : ∀ c, ¬OnCycle m c) {level : Char} {c : EnableConf} {m₀ : Maps}
    {ck : Checks CheckFn} (hck : registerChecks level c m₀ = some ck) (suppress : Bool) {data : CheckData}
    {ts : List Tree} (hts : Checkable data.flavor ts) (found : Bool) (out : List Finding) :
    let r := runChecksOnOneFile (selintExec m) suppress ck data (Loc.ofForest ts) ⟨found, .ok .init, out⟩
    (∃ s, r.2.st = .ok s) ∧
    ∀ f ∈ r.2.out, f ∈ out ∨ (f.result.severity = 'F' →
      ∃ l : Loc, l.unzip = ts ∧ f.lineno = l.info.lineno ∧ KnownInternal l.info l.focus.children f.result) := by
  have h := file_safe hc (hooksWell_registered hck) suppress hts (s := ⟨found, .ok .init, out⟩)
    ⟨.init, rfl, .inl rfl⟩
  obtain ⟨-, ⟨s, h1, -⟩, h2⟩ := h
  exact ⟨⟨s, h1⟩, h2⟩

/-! ## The run -/

/-- The conditions on the te files that are checked: they have fewer lines than an `unsigned int`
can count, and none of them consists of definitions of access vectors. -/
structure Spec.Ordinary (src : Sources) (te : List Str) : Prop where
  lines : ∀ name ∈ te, ∀ s, src.text name = some s → s.count '\n' < 2 ^ 32 - 1
  noAv : ∀ name ∈ te, ∀ s, src.text name = some s → ∀ d ls, ¬ParsesTo s (.av [] d ls)

theorem parseOneFile_accepted {src : Sources} {name : Str} {flavor : PlainFlavor} {m m' : Maps}
    {ts : List Tree} (h : parseOneFile src name flavor m = .ok (some (ts, m'))) :
    ∃ s f mod st, src.text name = some s ∧ ParsesTo s f ∧
      f.exec flavor mod m = .ok (some st) ∧ ts = st.loc.unzip ∧ m' = st.maps := by
  unfold parseOneFile at h
  cases h1 : moduleOfFile name with
  | ub => rw [h1] at h; cases h
  | ok mod =>
    rw [h1] at h
    simp only [Res.bind_ok] at h
    cases h2 : src.text name with
    | none => rw [h2] at h; cases h
    | some s =>
      rw [h2] at h
      simp only at h
      cases h3 : lexFile s with
      | none => rw [h3] at h; cases h
      | some toks =>
        rw [h3] at h
        simp only [Option.bind_some] at h
        cases h4 : pFile toks with
        | none => rw [h4] at h; cases h
        | some f =>
          rw [h4] at h
          simp only at h
          cases h5 : f.exec flavor mod m with
          | ub => rw [h5] at h; cases h
          | ok o =>
            rw [h5] at h
            simp only [Res.bind_ok] at h
            cases o with
            | none => cases h
            | some st =>
              cases h
              have hp : ParsesTo s f := ⟨toks, h3, C68_sound h4⟩
              exact ⟨s, f, mod, st, rfl, hp, h5, rfl, rfl⟩

theorem parseResult_ne {m m' : Maps} {r : Res (Option (List Tree × Maps))} {ts : List Tree} (hne : ts ≠ [])
    (h : parseResult m r = (ts, m')) : r = .ok (some (ts, m')) := by
  cases r with
  | ub => cases h; exact absurd rfl hne
  | ok o =>
    cases o with
    | none => cases h; exact absurd rfl hne
    | some x => cases h; rfl

theorem parseResult_permmacros {src : Sources} {name : Str} {flavor : PlainFlavor}
    (hf : flavor ≠ .sptFile) (m : Maps) :
    (parseResult m (parseOneFile src name flavor m)).2.permmacros = m.permmacros := by
  cases h : parseOneFile src name flavor m with
  | ub => rfl
  | ok o =>
    cases o with
    | none => rfl
    | some x =>
      obtain ⟨ts, m'⟩ := x
      obtain ⟨s, f, mod, st, -, hp, hx, -, rfl⟩ := parseOneFile_accepted h
      exact parsed_permmacros hf hp.tokens.1 hx

section
variable {src : Sources} (suppress : Bool) (config : ConfigCheckData)

/-- What the parsers of the program deliver is as the checks expect. -/
theorem parser_checkable {te : List Str} (hs : Ordinary src te) {fl : FileFlavor} {name : Str} {m : Maps}
    (hn : fl = .teFile → name ∈ te)
    (hne : ((wholeProgram src suppress config).parser (fileNode fl) name m).1 ≠ []) :
    Checkable fl ((wholeProgram src suppress config).parser (fileNode fl) name m).1 := by
  cases fl with
  | teFile =>
    have e : (wholeProgram src suppress config).parser (fileNode .teFile) name m =
      parseResult m (parseOneFile src name .teFile m) := rfl
    rw [e] at hne ⊢
    obtain ⟨s, f, mod, st, ht, hp, hx, h1, -⟩ := parseOneFile_accepted (parseResult_ne hne rfl)
    rw [h1]
    exact parsed_checkable_te hp (hs.lines _ (hn rfl) _ ht) (fun d ls e => hs.noAv _ (hn rfl) _ ht d ls (e ▸ hp)) hx
  | ifFile =>
    have e : (wholeProgram src suppress config).parser (fileNode .ifFile) name m =
      parseResult m (parseOneFile src name .ifFile m) := rfl
    rw [e] at hne ⊢
    obtain ⟨s, f, mod, st, -, hp, hx, h1, -⟩ := parseOneFile_accepted (parseResult_ne hne rfl)
    rw [h1]
    exact parsed_checkable_if hp hx
  | fcFile =>
    have e : (wholeProgram src suppress config).parser (fileNode .fcFile) name m =
      (wholeProgram src suppress config).parseFc name m := rfl
    rw [e] at hne ⊢
    simp only [wholeProgram] at hne ⊢
    split
    · rename_i ns h; exact parsed_checkable_fc h
    · rename_i h
      split at hne
      · rename_i ns h'; exact absurd h' (h ns)
      · exact absurd rfl hne

theorem parser_permmacros (fl : NodeFlavor) (name : Str) (m : Maps) :
    ((wholeProgram src suppress config).parser fl name m).2.permmacros = m.permmacros := by
  unfold Program.parser
  split
  · simp only [wholeProgram]; split <;> rfl
  · simp only [wholeProgram]
    split
    · exact parseResult_permmacros (by decide) m
    · exact parseResult_permmacros (by decide) m
    · rfl

theorem tablesOf_permmacros (ps : List Event) (m : Maps) :
    (tablesOf (wholeProgram src suppress config) ps m).permmacros = m.permmacros := by
  induction ps generalizing m with
  | nil => rfl
  | cons ev ps ih =>
    cases ev with
    | parse a n fl ast => simp only [tablesOf]; rw [ih, parser_permmacros]
    | mark asts =>
      simp only [tablesOf]
      rw [ih]
      obtain ⟨m', h1, -, h2⟩ := C22_least_fixpoint asts m
      rw [h1, Option.getD_some, h2]
    | check a n d t tb => exact ih m
    | cleanup => exact ih m

theorem genuine_mem {F σ : Type} {prog : Program F σ} {ps : List Event} {m : Maps} (h : Genuine prog ps m)
    {a : Nat} {n : Str} {fl : NodeFlavor} {ast : List Tree} (hm : .parse a n fl ast ∈ ps) :
    ∃ m', ast = (prog.parser fl n m').1 := by
  induction ps generalizing m with
  | nil => cases hm
  | cons ev ps ih =>
    rcases List.mem_cons.1 hm with rfl | hm'
    · exact ⟨m, h.1⟩
    · cases ev with
      | parse => exact ih h.2 hm'
      | mark => exact ih h hm'
      | check => exact ih h hm'
      | cleanup => exact ih h hm'

theorem onCycle_congr {m m' : Maps} (h : m.permmacros = m'.permmacros) {c : Str} (hc : OnCycle m c) : OnCycle m' c := by
  have hl : ∀ p, m.lookUpPermmacro p = m'.lookUpPermmacro p := by
    intro p; simp only [Maps.lookUpPermmacro, h]
  have hstep : ∀ {p q}, MacroStep m p q → MacroStep m' p q := by
    intro p q h; unfold MacroStep at h ⊢; rwa [← hl]
  have hreach : ∀ {p q}, Spec.Reaches m p q → Spec.Reaches m' p q := by
    intro p q h
    induction h with
    | refl => exact .refl _
    | step h _ ih => exact .step (hstep h) ih
  obtain ⟨d, h1, h2⟩ := hc
  exact ⟨d, hstep h1, hreach h2⟩

/-- **C67.** For all sources, in every configuration: a run of selint over the files of its
lists executes its checks without undefined behaviour, and each internal error that it prints is
a known one, at a node of a file that was checked. The permission macros must not be circular. -/
theorem C67_run {files : List Str} (hs : Ordinary src files) {ls : Lists} {te ifs fc cte cif : List Nat}
    {level : Char} {c : EnableConf} {s : RunnerState CheckFn (Res Statics)}
    (hw : World s.heap ls te ifs fc cte cif)
    (hn : ∀ a ∈ te, ∀ c, s.heap[a]? = some c → c.filename ∈ files)
    (hc : ∀ p, ¬OnCycle s.maps p) (hck : registerChecks level c s.maps = some s.ck)
    (hst : s.rs.st = .ok .init) (hout : s.rs.out = []) :
    ∃ e s', runAnalysis (wholeProgram src suppress config) ls s = some (e, s') ∧
      (∃ x, s'.rs.st = .ok x) ∧
      ∀ f ∈ s'.rs.out, f.result.severity = 'F' → ∃ a n data ast tables, .check a n data ast tables ∈ s'.log ∧
        f.filename = data.filename ∧ ∃ l : Loc, l.unzip = ast ∧ f.lineno = l.info.lineno ∧
          KnownInternal l.info l.focus.children f.result := by
  obtain ⟨e, s', ps, cs, h1, h2⟩ := runAnalysis_ok (prog := wholeProgram src suppress config) s hw
  refine ⟨e, s', h1, ?_⟩
  rcases h2.result with ⟨-, -, hnf, hck', hcs⟩ | ⟨-, rfl, -⟩
  · -- the parsing succeeded
    generalize hm : tablesOf (wholeProgram src suppress config) ps s.maps = m at hcs
    have hpm : m.permmacros = s.maps.permmacros := by rw [← hm]; exact tablesOf_permmacros suppress config ps s.maps
    have hc' : ∀ p, ¬OnCycle m p := fun p h => hc p (onCycle_congr hpm h)
    have key : ∀ (evs : List Event), (∀ ev ∈ evs, ev ∈ cs) → ∀ x : Checks CheckFn × RunState (Res Statics),
        HooksWell x.1 → HooksFrom level c s.maps x.1 → StOk m x.2.st →
        let r := evs.foldl (replay (wholeProgram src suppress config)) x
        StOk m r.2.st ∧ ∀ f ∈ r.2.out, f ∈ x.2.out ∨ (f.result.severity = 'F' →
          ∃ a n data ast tables, Event.check a n data ast tables ∈ cs ∧
          f.filename = data.filename ∧ ∃ l : Loc, l.unzip = ast ∧ f.lineno = l.info.lineno ∧
            KnownInternal l.info l.focus.children f.result) := by
      intro evs
      induction evs with
      | nil => intro _ x _ _ hs; exact ⟨hs, fun f hf => .inl hf⟩
      | cons ev evs ih =>
        intro hev x hx hx' hst
        obtain ⟨a, n, fl, ast, rfl, hp⟩ := hcs ev (hev ev (.head _))
        obtain ⟨m', hast⟩ := genuine_mem h2.genuine hp
        have hne : ast ≠ [] := hnf _ hp
        have hok : Checkable fl ast := by
          rw [hast] at hne ⊢
          refine parser_checkable suppress config hs (fun hfl => ?_) hne
          subst hfl
          obtain ⟨-, -, ⟨cell, h3, rfl⟩, h4⟩ := h2.noCheck _ hp
          refine hn a ?_ cell h3
          have h5 : a ∈ te ++ ifs ++ fc := by
            rw [← hck']
            exact List.mem_filterMap.2 ⟨_, hev _ (.head _), rfl⟩
          have hnd := hw.nodup
          simp only [fileNode, reduceCtorEq, false_and, true_and, or_false, false_or] at h4
          simp only [List.mem_append] at h4 h5
          rcases h4 with h4 | h4
          · exact h4
          · simp only [List.nodup_append, List.mem_append] at hnd
            obtain ⟨⟨⟨⟨_, _, _⟩, _, d2⟩, _, _⟩, _, d4⟩ := hnd
            rcases h5 with (h5 | h5) | h5
            · exact h5
            · exact absurd rfl (d2 a (.inl h5) a h4)
            · exact absurd rfl (d4 a (.inl (.inr h4)) a h5)
        obtain ⟨f1, f2, f3⟩ := file_safe hc' hx suppress (data := checkDataFor (wholeProgram src suppress config) fl n)
          (ts := ast) hok hst
        obtain ⟨o1, o2⟩ := file_output (m := m) hx' suppress (checkDataFor (wholeProgram src suppress config) fl n)
          ast x.2
        obtain ⟨i1, i2⟩ := ih (fun ev h => hev ev (.tail _ h))
          (replay (wholeProgram src suppress config) x (.check a n _ ast m)) f1 o1 f2
        refine ⟨i1, fun f hf => ?_⟩
        rcases i2 f hf with h | h
        · rcases f3 f h with h' | h'
          · exact .inl h'
          · rcases o2 f h with o | o
            · exact .inl o
            · exact .inr fun hsev => ⟨a, n, _, ast, m, hev _ (.head _), o.2.1, h' hsev⟩
        · exact .inr h
    have hk := key cs (fun _ h => h) (s.ck, s.rs) (hooksWell_registered hck) (hooksFrom_registered hck)
      ⟨.init, hst, .inl rfl⟩
    simp only [← h2.replayed] at hk
    obtain ⟨⟨x, hx, -⟩, h3⟩ := hk
    refine ⟨⟨x, hx⟩, fun f hf hsev => ?_⟩
    rcases h3 f hf with h | h
    · rw [hout] at h; cases h
    · obtain ⟨a, n, data, ast, tables, hm, hl⟩ := h hsev
      refine ⟨a, n, data, ast, tables, ?_, hl⟩
      rw [h2.log]
      exact List.mem_append_left _ (List.mem_append_right _ hm)
  · -- no check was run
    have h3 := h2.replayed
    simp only [List.foldl_nil, Prod.mk.injEq] at h3
    rw [h3.2]
    exact ⟨⟨.init, hst⟩, by simp [hout]⟩

end

/-! ## Runs over one file -/

/-- A directory with the one file `foo.te`. -/
def oneFile (s : Str) : Sources where
  text := fun name => if name = cs!"foo.te" then some s else none
  fcLines := fun _ => none
  fcMacros := []

/-- The state before the run: all checks are registered. -/
def oneState : RunnerState CheckFn (Res Statics) :=
  ⟨[⟨cs!"foo.te", [], none⟩], {}, (registerChecks 'C' ⟨[], [], [], [], false⟩ {}).getD .empty,
    ⟨false, .ok .init, []⟩, []⟩

/-- The list with `foo.te`. -/
def oneLists : Lists := ⟨⟨some 0, some 0⟩, ⟨none, none⟩, ⟨none, none⟩, ⟨none, none⟩, ⟨none, none⟩⟩

/-- The state after the run. -/
def oneRun (s : Str) : Option (SelintError × RunnerState CheckFn (Res Statics)) :=
  runAnalysis (wholeProgram (oneFile s) false ⟨.ref, [], false, false, []⟩) oneLists oneState

/-- Line, severity, number and message of the findings. -/
def oneOutput (s : Str) : List (Nat × Char × Nat × Str) :=
  ((oneRun s).map fun r => r.2.rs.out.map fun f =>
    (f.lineno, f.result.severity, f.result.checkId, f.result.message)).getD []

theorem oneFile_ordinary {s : Str} {f : SourceFile} (hp : ParsesTo s f) (hl : s.count '\n' < 2 ^ 32 - 1)
    (hf : ∀ d ls, f ≠ .av [] d ls) : Ordinary (oneFile s) [cs!"foo.te"] where
  lines := by
    intro n _ s' h
    simp only [oneFile] at h
    split at h
    · cases h; exact hl
    · cases h
  noAv := by
    intro n _ s' h d ls hav
    simp only [oneFile] at h
    split at h
    · cases h
      have e := C68_unambiguous_text hp hav
      cases f with
      | av cs d' ls' => simp only [SourceFile.plain] at e; cases e; exact hf _ _ rfl
      | _ => simp [SourceFile.plain] at e
    · cases h

theorem one_world : World oneState.heap oneLists [0] [] [] [] [] :=
  ⟨⟨⟨rfl, _, rfl, rfl⟩, rfl⟩, ⟨rfl, rfl⟩, ⟨rfl, rfl⟩, ⟨rfl, rfl⟩, ⟨rfl, rfl⟩, by simp⟩

theorem one_acyclic : ∀ p, ¬OnCycle oneState.maps p := by
  rintro p ⟨d, ⟨-, ps, h, -⟩, -⟩
  cases h

/-! ### C-001 without a reason -/

/-- A te file in which the sections of lines 2, 5 and 3, 6 count as the same, but not the order
of line 4 relative to them. -/
def unreasonedText : Str :=
  cs!"policy_module(foo, 1.0)\niface(foo_r)\nallow foo_t foo_t:file read;\nallow foo_s_t foo_t:file read;\niface(foo_r)\nallow foo_t foo_t:file read;\n"

/-- `allow s foo_t:file read;` on line `n`. -/
def ruleLine (n : Nat) (s : Str) : Line :=
  .bare (.simple n (.rule .allow (.item (.word s)) (.item (.word cs!"foo_t")) (.item (.word cs!"file"))
    (.item (.word cs!"read"))))

/-- `iface(foo_r)` on line `n`. -/
def callLine (n : Nat) : Line :=
  .bare (.simple n (.call cs!"iface" (some ⟨.xperm (.item (.word cs!"foo_r")), []⟩)))

/-- Its derivation. -/
def unreasonedFile : SourceFile :=
  .te [] ⟨1, cs!"foo", true, false, cs!"1.0"⟩
    (.more (.more (.more (.more (.one (callLine 2)) (ruleLine 3 cs!"foo_t")) (ruleLine 4 cs!"foo_s_t"))
      (callLine 5)) (ruleLine 6 cs!"foo_t"))

theorem unreasoned_parses : ParsesTo unreasonedText unreasonedFile := by
  refine ⟨(lexFile unreasonedText).getD [], by decide +kernel, ?_⟩
  simp only [unreasonedFile, SourceFile.At, Lines.At, Line.At, Stmt.At, ruleLine, callLine]
  generalize h : (lexFile unreasonedText).getD [] = ts
  refine ⟨ts.take 6, ts.drop 6, (List.take_append_drop ..).symm, ?_, (ts.drop 6).take 22, _,
    (List.take_append_drop ..).symm, ⟨(ts.drop 6).take 18, (ts.drop 24).take 4, ?_,
      ⟨(ts.drop 6).take 11, (ts.drop 17).take 7, ?_, ⟨(ts.drop 6).take 4, (ts.drop 10).take 7, ?_, ?_, ?_⟩, ?_⟩,
      ?_⟩, ?_⟩
  all_goals subst h
  all_goals first | exact ⟨by decide +kernel, by decide +kernel⟩ | decide +kernel

/-- **C67, the internal error is real.** On a legal te file C-001 reports that it could not
compute a reason: being out of order is not transitive. -/
theorem C67_false_reason : ParsesTo unreasonedText unreasonedFile ∧
    (3, 'F', 2, cs!"Failed to compute reason C-001") ∈ oneOutput unreasonedText :=
  ⟨unreasoned_parses, by decide +kernel⟩

/-! ### C-006 on a nested `ifdef` -/

/-- A te file with a conditional requirement. -/
def conditionalText : Str :=
  cs!"policy_module(foo, 1.0)\ngen_require(`\n\tifdef(`x',`\n\t\ttype foo_t;\n\t')\n')\n"

/-- Its derivation. -/
def conditionalFile : SourceFile :=
  .te [] ⟨1, cs!"foo", true, false, cs!"1.0"⟩
    (.one (.bare (.genRequire 2 none none (.one (.bare (.ifdef 3 false true cs!"x"
      (.one (.bare (.decls 4 .type .type rfl ⟨cs!"foo_t", []⟩)))))))))

theorem conditional_parses : ParsesTo conditionalText conditionalFile := by
  refine ⟨(lexFile conditionalText).getD [], by decide +kernel, ?_⟩
  simp only [conditionalFile, SourceFile.At, Lines.At, Line.At, Stmt.At, ReqLines.At, ReqLine.At, ReqStmt.At]
  generalize h : (lexFile conditionalText).getD [] = ts
  refine ⟨ts.take 6, ts.drop 6, (List.take_append_drop ..).symm, ?_, (ts.drop 6).take 2, (ts.drop 8).take 1,
    (ts.drop 9).take 12, ts.drop 21, ?_, ?_, ?_, ⟨(ts.drop 9).take 7, (ts.drop 16).take 3, (ts.drop 19).take 2,
      ?_, ?_, ?_, ?_, ?_⟩, ?_⟩
  all_goals subst h
  all_goals first | exact ⟨by decide +kernel, by decide +kernel⟩ | decide +kernel

/-- **C67, the other internal error is real.** C-006 reports an internal error for an `ifdef` in
a require block, which the grammar allows. -/
theorem C67_false_require : ParsesTo conditionalText conditionalFile ∧
    (2, 'F', 2, cs!"Non declaration node in require block") ∈ oneOutput conditionalText :=
  ⟨conditional_parses, by decide +kernel⟩

/-! ### A te file that defines access vectors -/

/-- A `common` definition, in a file with the name of a te file. -/
def commonText : Str := cs!"common file { read }\n"

/-- Its derivation. -/
def commonFile : SourceFile := .av [] (.common cs!"file" ⟨some cs!"read", []⟩) []

theorem common_parses : ParsesTo commonText commonFile :=
  ⟨(lexFile commonText).getD [], by decide +kernel, _, rfl, by decide +kernel⟩

/-- **C67, the condition on te files is needed.** The te file is accepted with a tree that has
only the root. C-001 then numbers no line and reads the entry before the first one of its
array. -/
theorem C67_false_common : ParsesTo commonText commonFile ∧
    (oneRun commonText).map (fun r => r.2.rs.st matches .ub) = some true :=
  ⟨common_parses, by decide +kernel⟩

/-! ### C67 is about something -/

/-- The conditions of C67 hold for the run over `unreasonedText`. -/
example : Ordinary (oneFile unreasonedText) [cs!"foo.te"] ∧ World oneState.heap oneLists [0] [] [] [] [] ∧
    (∀ a ∈ [0], ∀ c, oneState.heap[a]? = some c → c.filename ∈ [cs!"foo.te"]) ∧
    (∀ p, ¬OnCycle oneState.maps p) ∧
    registerChecks 'C' ⟨[], [], [], [], false⟩ oneState.maps = some oneState.ck ∧
    oneState.rs.st = .ok .init ∧ oneState.rs.out = [] :=
  ⟨oneFile_ordinary unreasoned_parses (by decide +kernel) (by intro _ _ h; cases h), one_world,
    (by simp [oneState]), one_acyclic, rfl, rfl, rfl⟩

end Selint
