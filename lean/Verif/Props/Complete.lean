import Verif.Lemmas.Report
import Verif.Props.Selint
/-! # C72: nothing that a check finds is lost, and nothing else is printed -/

namespace Selint
open Spec

/-! ## Checks without memory -/

/-- The check functions whose result depends on the calls before: C-001 remembers the order, and
S-010 the permissions seen so far. -/
def Spec.Remembers (fn : CheckFn) : Prop := fn = .teOrder ∨ fn = .permMacroAvailable

/-- What a check function without memory finds at a node. -/
def Spec.Finds (fn : CheckFn) (m : Maps) (data : CheckData) (node : Loc) (res : CheckResult) : Prop :=
  ∃ s, fn.run m data node .init = .ok (s, some res)

theorem stateless_ok {s s' : Statics} {r : CheckOut} {o : Option CheckResult} (h : stateless s r = .ok (s', o)) (t : Statics) :
    stateless t r = .ok (t, o) := by
  unfold stateless at h ⊢
  cases r with
  | ub => cases h
  | ok r => cases h; rfl

theorem CheckFn.run_any {fn : CheckFn} (hfn : ¬Remembers fn) {m : Maps} {data : CheckData} {node : Loc} {s s' : Statics}
    {o : Option CheckResult} (h : fn.run m data node s = .ok (s', o)) (t : Statics) :
    ∃ t', fn.run m data node t = .ok (t', o) := by
  cases fn with
  | teOrder => exact absurd (.inl rfl) hfn
  | permMacroAvailable => exact absurd (.inr rfl) hfn
  | fileContextTypesInMod => cases h; exact ⟨_, rfl⟩
  | _ => exact ⟨t, stateless_ok h t⟩

theorem selintExec_ok {m : Maps} {fn : CheckFn} {data : CheckData} {node : Loc} {st : Res Statics}
    (h : (selintExec m fn data node st).1 ≠ .ub) :
    ∃ s s', st = .ok s ∧ fn.run m data node s = .ok (s', (selintExec m fn data node st).2) ∧
      (selintExec m fn data node st).1 = .ok s' := by
  cases st with
  | ub => exact absurd rfl h
  | ok s =>
    simp only [selintExec] at h ⊢
    cases hr : fn.run m data node s with
    | ub => simp only [hr] at h; exact absurd rfl h
    | ok x => exact ⟨s, x.1, rfl, hr, rfl⟩

theorem execute_ub {m : Maps} {data : CheckData} (vs : List (Invocation CheckFn)) :
    (execute (selintExec m) data vs .ub).1 = .ub := by
  induction vs with
  | nil => rfl
  | cons v vs ih => simpa [execute, selintExec] using ih

/-- If all went well, each call of a function without memory had the result that it would have had
at the start. -/
theorem execute_results {m : Maps} {data : CheckData} {vs : List (Invocation CheckFn)} {st : Res Statics}
    (h : (execute (selintExec m) data vs st).1 ≠ .ub) :
    (∀ v ∈ vs, ∃ o, (v, o) ∈ (execute (selintExec m) data vs st).2) ∧
    ∀ p ∈ (execute (selintExec m) data vs st).2, p.1 ∈ vs ∧
      ∃ s s', p.1.fn.run m data p.1.node s = .ok (s', p.2) := by
  induction vs generalizing st with
  | nil => simp [execute]
  | cons v vs ih =>
    simp only [execute] at h ⊢
    have h1 : (selintExec m v.fn data v.node st).1 ≠ .ub := by
      intro hu; rw [hu] at h; exact h (execute_ub vs)
    obtain ⟨s, s', -, h2, h3⟩ := selintExec_ok h1
    obtain ⟨i1, i2⟩ := ih h
    refine ⟨fun w hw => ?_, fun p hp => ?_⟩
    · rcases List.mem_cons.1 hw with rfl | hw
      · exact ⟨_, .head _⟩
      · obtain ⟨o, ho⟩ := i1 w hw
        exact ⟨o, .tail _ ho⟩
    · rcases List.mem_cons.1 hp with rfl | hp
      · exact ⟨.head _, s, s', h2⟩
      · obtain ⟨h4, h5⟩ := i2 p hp
        exact ⟨.tail _ h4, h5⟩

section
variable {prog : Program CheckFn (Res Statics)}

theorem report_ub {m : Maps} {ck : Checks CheckFn} (xs : List PolicyFile) :
    (report prog (selintExec m) ck xs .ub).1 = .ub := by
  induction xs with
  | nil => rfl
  | cons x xs ih => simp only [report, execute_ub, ih]

/-- The findings of a report, one by one. -/
theorem report_mem {m : Maps} {ck : Checks CheckFn} {xs : List PolicyFile} {st : Res Statics}
    (h : (report prog (selintExec m) ck xs st).1 ≠ .ub) :
    (∀ f ∈ (report prog (selintExec m) ck xs st).2, ∃ x ∈ xs, ∃ v ∈ callsFor ck x.trees, ∃ s s' res,
      v.fn.run m (checkDataFor prog x.kind x.path) v.node s = .ok (s', some res) ∧
      f = ⟨basename x.path, v.node.info.lineno, res⟩) ∧
    ∀ x ∈ xs, ∀ v ∈ callsFor ck x.trees, ¬Remembers v.fn →
      ∀ res, Finds v.fn m (checkDataFor prog x.kind x.path) v.node res →
        ⟨basename x.path, v.node.info.lineno, res⟩ ∈ (report prog (selintExec m) ck xs st).2 := by
  induction xs generalizing st with
  | nil => simp [report]
  | cons x xs ih =>
    simp only [report] at h ⊢
    have h1 : (execute (selintExec m) (checkDataFor prog x.kind x.path) (callsFor ck x.trees) st).1 ≠ .ub := by
      intro hu; rw [hu] at h; exact h (report_ub xs)
    obtain ⟨e1, e2⟩ := execute_results h1
    obtain ⟨i1, i2⟩ := ih h
    refine ⟨fun f hf => ?_, fun y hy v hv hfn res hres => ?_⟩
    · rcases List.mem_append.1 hf with hf | hf
      · simp only [findings, List.mem_filterMap, Option.map_eq_some_iff] at hf
        obtain ⟨⟨v, o⟩, h2, res, h3, rfl⟩ := hf
        simp only at h3
        subst h3
        obtain ⟨h4, s, s', h5⟩ := e2 _ h2
        exact ⟨x, .head _, v, h4, s, s', res, h5, rfl⟩
      · obtain ⟨y, hy, h2⟩ := i1 f hf
        exact ⟨y, .tail _ hy, h2⟩
    · rcases List.mem_cons.1 hy with rfl | hy
      · refine List.mem_append.2 (.inl ?_)
        obtain ⟨o, ho⟩ := e1 v hv
        obtain ⟨-, s, s', h2⟩ := e2 _ ho
        obtain ⟨t, h3⟩ := hres
        obtain ⟨t', h4⟩ := CheckFn.run_any hfn h2 .init
        rw [h3] at h4
        cases h4
        exact List.mem_filterMap.2 ⟨_, ho, rfl⟩
      · exact List.mem_append.2 (.inr (i2 y hy v hv hfn res hres))

end

theorem mem_callsFor {level : Char} {c : EnableConf} {m : Maps} {ck : Checks CheckFn}
    (h : registerChecks level c m = some ck) {ts : List Tree} {fn : CheckFn} {l : Loc} :
    (∃ v ∈ callsFor ck ts, v.fn = fn ∧ v.node = l) ↔ ∃ row ∈ checkTable, row.fn = fn ∧ atLeast row.sev level = true ∧
      isCheckEnabled row.id c = true ∧ row.needs m = true ∧ l.flavor ∈ row.on ∧ ¬Excepted row.id l ∧
      (l.unzip = ts ∨ l = cleanupLoc) := by
  have hl : l ∈ Tree.locsList [] ts [] ++ [cleanupLoc] ↔ l.unzip = ts ∨ l = cleanupLoc := by
    rw [List.mem_append, List.mem_singleton]
    refine or_congr ⟨fun hl => ?_, fun hl => ?_⟩ Iff.rfl
    · simpa [Loc.plug] using Tree.unzip_of_mem_locsList [] ts [] l hl
    · subst hl; exact l.mem_locs_unzip
  rw [← hl]
  constructor
  · rintro ⟨v, hv, rfl, rfl⟩
    simp only [callsFor, List.mem_flatMap, invocationsAt, List.mem_map, List.mem_filter, decide_eq_true_eq] at hv
    obtain ⟨l, hmem, ⟨k, i⟩, ⟨h1, h2⟩, rfl⟩ := hv
    have h3 := (List.mem_zipIdx h1).2.2
    have h4 : k ∈ ck l.flavor := by rw [h3]; exact List.getElem_mem _
    rw [C03_registered level c m ck h] at h4
    simp only [hooksOn, List.mem_map, List.mem_filter, Bool.and_eq_true, decide_eq_true_eq] at h4
    obtain ⟨row, ⟨h5, ⟨⟨h6, h7⟩, h8⟩, h9⟩, rfl⟩ := h4
    exact ⟨row, h5, rfl, h6, h7, h8, by simpa using h9, h2, hmem⟩
  · rintro ⟨row, h1, rfl, h2, h3, h4, h5, h6, h7⟩
    have h8 : (⟨row.fn, row.id, 0⟩ : CheckNode CheckFn) ∈ ck l.flavor := by
      rw [C03_registered level c m ck h]
      simp only [hooksOn, List.mem_map, List.mem_filter, Bool.and_eq_true, decide_eq_true_eq]
      exact ⟨row, ⟨h1, ⟨⟨h2, h3⟩, h4⟩, by simpa using h5⟩, rfl⟩
    obtain ⟨i, h9⟩ := List.getElem?_of_mem h8
    refine ⟨⟨l, i, row.fn⟩, ?_, rfl, rfl⟩
    simp only [callsFor, List.mem_flatMap, invocationsAt, List.mem_map, List.mem_filter, decide_eq_true_eq]
    exact ⟨l, h7, (⟨row.fn, row.id, 0⟩, i), ⟨by rw [List.mem_zipIdx_iff_getElem?]; exact h9, h6⟩, rfl⟩

theorem row_unique {a b : CheckRow} (ha : a ∈ checkTable) (hb : b ∈ checkTable) (hs : a.sev = b.sev) (hn : a.num = b.num) :
    a = b := by
  have key : (checkTable.map fun r => (r.sev, r.num)).Nodup := by
    simp only [checkTable, List.map_cons, List.map_nil]
    decide
  generalize checkTable = l at *
  induction l with
  | nil => cases ha
  | cons x l ih =>
    rw [List.map_cons, List.nodup_cons] at key
    have hin : ∀ r ∈ l, (r.sev, r.num) ∈ l.map fun r => (r.sev, r.num) := fun r hr => List.mem_map_of_mem hr
    rcases List.mem_cons.1 ha with rfl | ha' <;> rcases List.mem_cons.1 hb with h | hb
    · exact h.symm
    · exact absurd (by rw [hs, hn]; exact hin b hb) key.1
    · subst h; exact absurd (by rw [← hs, ← hn]; exact hin a ha') key.1
    · exact ih ha' hb key.2

theorem row_not_fatal {a : CheckRow} (ha : a ∈ checkTable) : a.sev ≠ 'F' := by
  have key : ∀ c ∈ checkTable.map fun r => r.sev, c ≠ 'F' := by
    simp only [checkTable, List.map_cons, List.map_nil]
    decide
  exact key _ (List.mem_map_of_mem ha)

/-! ## What is read -/

section
variable {F σ : Type} {prog : Program F σ}

theorem readAll_mem {kind : FileFlavor} {names : List Str} {m m' : Maps} {xs : List PolicyFile}
    (h : readAll prog kind names m = some (xs, m')) :
    xs.map (fun x => (x.kind, x.path)) = names.map (kind, ·) ∧
    ∀ x ∈ xs, x.kind = kind ∧ x.path ∈ names ∧ x.trees ≠ [] ∧
      ∃ m₀, x.trees = (prog.parser (fileNode kind) x.path m₀).1 := by
  induction names generalizing m xs with
  | nil => cases h; simp
  | cons n ns ih =>
    simp only [readAll] at h
    split at h
    · cases h
    · rename_i hne
      simp only [Option.map_eq_some_iff] at h
      obtain ⟨⟨ys, m₁⟩, h1, h2⟩ := h
      cases h2
      obtain ⟨i1, i2⟩ := ih h1
      refine ⟨by simp only [List.map_cons, i1], fun x hx => ?_⟩
      rcases List.mem_cons.1 hx with rfl | hx
      · exact ⟨rfl, .head _, hne, m, rfl⟩
      · obtain ⟨h3, h4, h5⟩ := i2 x hx
        exact ⟨h3, .tail _ h4, h5⟩

theorem readPolicy_mem {te ifs fc cte cif : List Str} {m m' : Maps} {xs : List PolicyFile}
    (h : readPolicy prog te ifs fc cte cif m = some (xs, m')) :
    xs.map (fun x => (x.kind, x.path)) = te.map (.teFile, ·) ++ ifs.map (.ifFile, ·) ++ fc.map (.fcFile, ·) ∧
    ∀ x ∈ xs, x.trees ≠ [] ∧ ∃ m₀, x.trees = (prog.parser (fileNode x.kind) x.path m₀).1 := by
  simp only [readPolicy, Option.bind_eq_bind, Option.bind_eq_some_iff, Option.pure_def, Option.some.injEq, Prod.mk.injEq] at h
  obtain ⟨⟨i, m1⟩, h1, ⟨ci, m2⟩, -, ⟨ct, m3⟩, -, ⟨t, m4⟩, h2, ⟨f, m5⟩, h3, rfl, -⟩ := h
  obtain ⟨i1, i2⟩ := readAll_mem h1
  obtain ⟨t1, t2⟩ := readAll_mem h2
  obtain ⟨f1, f2⟩ := readAll_mem h3
  refine ⟨by simp only [List.map_append, i1, t1, f1], fun x hx => ?_⟩
  simp only [List.mem_append] at hx
  rcases hx with (hx | hx) | hx
  · obtain ⟨e, -, h⟩ := t2 x hx; rw [e]; exact h
  · obtain ⟨e, -, h⟩ := i2 x hx; rw [e]; exact h
  · obtain ⟨e, -, h⟩ := f2 x hx; rw [e]; exact h

end

/-- The tree of a file: for te and interface files, what the derivation of its text gives, where
`answers` says which calls could be expanded; for fc files, the nodes of its lines. -/
def Spec.TreeOf (src : Sources) (x : PolicyFile) : Prop :=
  match x.kind with
  | .teFile => ∃ s f answers ns, src.text x.path = some s ∧ ParsesTo s f ∧
      buildFile f .teFile answers = ⟨ns, []⟩ ∧ x.trees = ns.reverse
  | .ifFile => ∃ s f answers ns, src.text x.path = some s ∧ ParsesTo s f ∧
      buildFile f .ifFile answers = ⟨ns, []⟩ ∧ x.trees = ns.reverse
  | .fcFile => ∃ ls ns, src.fcLines x.path = some ls ∧ parseFcFile src.fcMacros (some ls) = .ok (some ns) ∧
      x.trees = fcForest ns

theorem parser_treeOf {src : Sources} {suppress : Bool} {config : ConfigCheckData} {x : PolicyFile} {m : Maps}
    (h : x.trees = ((wholeProgram src suppress config).parser (fileNode x.kind) x.path m).1) (hne : x.trees ≠ []) :
    TreeOf src x := by
  have key : ∀ kind, x.trees = (parseResult m (parseOneFile src x.path kind m)).1 →
      ∃ s f answers ns, src.text x.path = some s ∧ ParsesTo s f ∧
      buildFile f kind answers = ⟨ns, []⟩ ∧ x.trees = ns.reverse := by
    intro kind hx
    obtain ⟨s, f, mod, st, ht, hp, hx', h1, -⟩ := parseOneFile_accepted (parseResult_ne (m := m) (hx ▸ hne) rfl)
    obtain ⟨ns, h2, h3⟩ := (C12_text hp hx').2.2.1 []
    exact ⟨s, f, _, ns, ht, hp, h2, hx.trans (h1.trans h3)⟩
  obtain ⟨kind, path, trees⟩ := x
  cases kind with
  | teFile => exact key .teFile h
  | ifFile => exact key .ifFile h
  | fcFile =>
    simp only [fileNode, Program.parser, wholeProgram, if_true] at h hne
    simp only [TreeOf]
    split at h
    · rename_i ns hns
      cases hl : src.fcLines path with
      | none => rw [hl] at hns; cases hns
      | some ls => exact ⟨ls, ns, rfl, by rw [← hl]; exact hns, h⟩
    · exact absurd h hne

/-! ## The output -/

/-- The course of a run: the settings, the files found, the files to be checked with their trees,
and the tables at the end of parsing. -/
structure Spec.Course where
  settings : Settings
  scan : Scan
  files : List PolicyFile
  tables : Maps

/-- The program of a run. -/
def Spec.Course.program (c : Course) (w : Machine) : Program CheckFn (Res Statics) :=
  wholeProgram (w.sources c.settings.customFcMacros) c.settings.opts.suppressOutput c.settings.checkData

/-- This is the course that the run with these arguments takes. It is determined by them. -/
structure Spec.Course.Of (c : Course) (w : Machine) (args : List Opt) (paths : List Str) : Prop where
  settings : Selint.settings w.config (optionsOf args) paths.length = .go c.settings
  opts : c.settings.opts = optionsOf args
  scan : loadSupport w (optionsOf args) (collect w c.settings paths) = .ok c.scan
  read : readPolicy (c.program w) c.scan.te c.scan.ifs c.scan.fc c.scan.contextTe c.scan.contextIf c.scan.maps =
    some (c.files, c.tables)

theorem Spec.Course.Of.unique {c c' : Course} {w : Machine} {args : List Opt} {paths : List Str}
    (h : c.Of w args paths) (h' : c'.Of w args paths) : c = c' := by
  obtain ⟨s1, a1, f1, m1⟩ := c
  obtain ⟨s2, a2, f2, m2⟩ := c'
  have e1 := h.settings.symm.trans h'.settings
  simp only [Flow.go.injEq] at e1
  subst e1
  have e2 := h.scan.symm.trans h'.scan
  simp only [Res.ok.injEq] at e2
  subst e2
  have e3 := h.read.symm.trans h'.read
  simp only [Option.some.injEq, Prod.mk.injEq] at e3
  obtain ⟨rfl, rfl⟩ := e3
  rfl

section
variable {w : Machine} {args : List Opt} {paths : List Str} {r : MainResult}

/-- **C72 (files).** The files that are checked are the te files, the interface files and the fc
files that were found, in this order, each with the tree of its content. -/
theorem C72_files {c : Course} (hc : c.Of w args paths) :
    c.files.map (fun x => (x.kind, x.path)) =
      c.scan.te.map (.teFile, ·) ++ c.scan.ifs.map (.ifFile, ·) ++ c.scan.fc.map (.fcFile, ·) ∧
    ∀ x ∈ c.files, TreeOf (w.sources c.settings.customFcMacros) x := by
  obtain ⟨h1, h2⟩ := readPolicy_mem hc.read
  refine ⟨h1, fun x hx => ?_⟩
  obtain ⟨h3, m₀, h4⟩ := h2 x hx
  exact parser_treeOf h4 h3

/-- **C72 (output).** A run that is not stopped by a parse error prints exactly the findings of its
checks, in the order of the files, of the nodes within a file and of the hooks at a node; and none
of the calls was undefined. -/
theorem C72_output (h : selintMain w args paths = .ok r) (hr : Reaches w.config args paths.length) (h70 : r.status ≠ 70) :
    ∃ (c : Course) (ck : Checks CheckFn), c.Of w args paths ∧
      (∀ fl, ck fl = hooksOn c.settings.severity (fun id => isCheckEnabled id c.settings.enableConf) c.scan.maps fl) ∧
      (report (c.program w) (selintExec c.tables) ck c.files (.ok .init)).1 ≠ .ub ∧
      (Opt.summaryOnly ∉ args → r.findings = (report (c.program w) (selintExec c.tables) ck c.files (.ok .init)).2) := by
  rcases selintMain_cases h with ⟨h1, -⟩ | ⟨-, st, s, ck, e, rs, A, ps, cs, h1, h2, h3, h4, h5, h6, h7, h8⟩
  · exact absurd hr h1
  have he : e = .success := by
    cases e <;> first | rfl | exact absurd (h6.trans (by simp [exitStatus, exSoftware, exOk])) h70
  subst he
  obtain ⟨files, m, h9, h10⟩ := h5.run.report (h5.names .te) (h5.names .ifs) (h5.names .fc) (h5.names .cte) (h5.names .cif)
  refine ⟨⟨st, s, files, m⟩, ck, ⟨h1, h2, h2 ▸ h3, h9⟩, C03_registered _ _ _ _ h4, ?_, fun ho => ?_⟩
  · have := h5.noUb
    rw [h10] at this
    exact this
  · rw [h7, h10]
    have hsup : st.opts.suppressOutput = decide (Opt.summaryOnly ∈ args) := by rw [h2]; rfl
    simp [reportState, wholeProgram, hsup, ho, Course.program]

/-- **C72 (nothing is lost, nothing is made up).** A run prints a finding of a check without memory
if and only if the check is selected and there is a checked file with a node (or its end), of a
flavor that the check is for and not excepted there, at which the check function has this result;
file name and line are those of this node. -/
theorem C72_findings (h : selintMain w args paths = .ok r) (hr : Reaches w.config args paths.length) (h70 : r.status ≠ 70)
    (ho : Opt.summaryOnly ∉ args) :
    ∃ c : Course, c.Of w args paths ∧ ∀ row ∈ checkTable, ¬Remembers row.fn → ∀ f : Finding,
      f.result.severity = row.sev → f.result.checkId = row.num →
      (f ∈ r.findings ↔ atLeast row.sev c.settings.severity = true ∧ isCheckEnabled row.id c.settings.enableConf = true ∧
        row.needs c.scan.maps = true ∧ ∃ x ∈ c.files, f.filename = basename x.path ∧
          ∃ l : Loc, (l.unzip = x.trees ∨ l = cleanupLoc) ∧ l.flavor ∈ row.on ∧ ¬Excepted row.id l ∧
            f.lineno = l.info.lineno ∧
            Finds row.fn c.tables
              ⟨cutLastDot (basename x.path), basename x.path, x.kind, c.settings.checkData⟩ l f.result) := by
  obtain ⟨c, ck, hc, hck, hub, hf⟩ := C72_output h hr h70
  obtain ⟨ck', hck'⟩ : ∃ ck', registerChecks c.settings.severity c.settings.enableConf c.scan.maps = some ck' := by
    cases hk : registerChecks c.settings.severity c.settings.enableConf c.scan.maps with
    | some ck' => exact ⟨ck', rfl⟩
    | none =>
      exact absurd ((C03_invalid_level _ _ _).mp hk) (settings_severity w.config args paths.length _ hr.noStop hc.settings)
  have heq : ck = ck' := by
    funext fl; rw [hck, C03_registered _ _ _ _ hck']
  subst heq
  obtain ⟨m1, m2⟩ := report_mem hub
  refine ⟨c, hc, fun row hrow hmem f hs hn => ?_⟩
  rw [hf ho]
  constructor
  · intro hfm
    obtain ⟨x, hx, v, hv, s, s', res, h1, rfl⟩ := m1 f hfm
    obtain ⟨row', h2, h3, h4, h5, h6, h7, h8, h9⟩ := (mem_callsFor hck' (fn := v.fn) (l := v.node)).1 ⟨v, hv, rfl, rfl⟩
    have hid := C66_ids row' h2 c.tables _ v.node s s' res (by rw [h3]; exact h1)
    have hrr : row = row' := by
      refine row_unique hrow h2 ?_ ?_
      · rcases hid with hid | hid
        · exact hs.symm.trans hid.1
        · exact absurd (hs.symm.trans hid.1) (row_not_fatal hrow)
      · rcases hid with hid | hid
        · exact hn.symm.trans hid.2
        · exact absurd (hs.symm.trans hid.1) (row_not_fatal hrow)
    subst hrr
    refine ⟨h4, h5, h6, x, hx, rfl, v.node, h9, h7, h8, rfl, ?_⟩
    rw [← h3] at h1
    exact CheckFn.run_any hmem h1 .init
  · rintro ⟨h1, h2, h3, x, hx, h4, l, h5, h6, h7, h8, h9⟩
    obtain ⟨v, hv, h10, h11⟩ := (mem_callsFor hck').2 ⟨row, hrow, rfl, h1, h2, h3, h6, h7, h5⟩
    have := m2 x hx v hv (by rw [h10]; exact hmem) f.result (by rw [h10, h11]; exact h9)
    rw [h11] at this
    rwa [show f = ⟨basename x.path, l.info.lineno, f.result⟩ by rw [← h4, ← h8]]

end

/-- The run of `selint -r -F mod` on the example machine meets the hypotheses; it takes its course
over a te, an interface and an fc file, and C-004 and E-005 are checks without memory. -/
example : ∃ (r : MainResult) (c : Course), selintMain exMachine [.recursive, .fail] [cs!"mod"] = .ok r ∧
    Reaches exMachine.config [.recursive, .fail] 1 ∧ r.status = 65 ∧ r.findings.length = 2 ∧
    c.Of exMachine [.recursive, .fail] [cs!"mod"] ∧
    c.files.map (fun x => (x.kind, x.path)) =
      [(.teFile, cs!"mod/foo.te"), (.ifFile, cs!"mod/foo.if"), (.fcFile, cs!"mod/foo.fc")] ∧
    (∀ row ∈ checkTable, ¬Remembers row.fn ↔ (row.sev, row.num) ≠ ('C', 1) ∧ (row.sev, row.num) ≠ ('S', 10)) := by
  have h : ∃ r, selintMain exMachine [.recursive, .fail] [cs!"mod"] = .ok r ∧ r.status = 65 ∧ r.findings.length = 2 := by
    cases h : selintMain exMachine [.recursive, .fail] [cs!"mod"] with
    | ub =>
      have : (match selintMain exMachine [.recursive, .fail] [cs!"mod"] with | .ok _ => true | .ub => false) = true := by
        decide +kernel
      rw [h] at this; cases this
    | ok r =>
      have : (match selintMain exMachine [.recursive, .fail] [cs!"mod"] with
        | .ok r => (r.status, r.findings.length) | .ub => (0, 0)) = (65, 2) := by decide +kernel
      rw [h] at this
      simp only [Prod.mk.injEq] at this
      exact ⟨r, rfl, this⟩
  obtain ⟨r, h1, h2, h3⟩ := h
  have hr : Reaches exMachine.config [.recursive, .fail] 1 := exMachine_reaches (by decide) (by simp) (by decide)
  obtain ⟨c, -, hc, -⟩ := C72_output h1 hr (by rw [h2]; decide)
  refine ⟨r, c, h1, hr, h2, h3, hc, ?_, ?_⟩
  · rw [(C72_files hc).1]
    have : (match settings exMachine.config (optionsOf [.recursive, .fail]) 1 with
        | .go st => (match loadSupport exMachine (optionsOf [.recursive, .fail]) (collect exMachine st [cs!"mod"]) with
          | .ok s => (s.te, s.ifs, s.fc) | .ub => ([], [], []))
        | .exit _ => ([], [], [])) = ([cs!"mod/foo.te"], [cs!"mod/foo.if"], [cs!"mod/foo.fc"]) := by decide +kernel
    rw [show settings exMachine.config (optionsOf [.recursive, .fail]) 1 = .go c.settings from hc.settings] at this
    simp only [hc.scan, Prod.mk.injEq] at this
    rw [this.1, this.2.1, this.2.2]
    rfl
  · simp only [Remembers, checkTable, List.forall_mem_cons, List.not_mem_nil, false_imp_iff, implies_true]
    simp

end Selint
