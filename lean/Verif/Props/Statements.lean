import Verif.Lemmas.Marked
import Verif.Props.Policy
/-! # C74: from the text of the files to the findings -/

namespace Selint
open Spec

/-! ## One file -/

section
variable {f : SourceFile} {expected : PlainFlavor} {mod : Str} {m : Maps} {st : PState}

theorem loc_of_info {ts : List Tree} {i : NodeInfo} : i ∈ Tree.preorderList ts ↔ ∃ l : Loc, l.unzip = ts ∧ l.info = i := by
  rw [← Tree.locsList_infos [] ts []]
  constructor
  · intro h
    obtain ⟨l, hl, rfl⟩ := List.mem_map.1 h
    exact ⟨l, by simpa [Loc.plug] using Tree.unzip_of_mem_locsList _ _ _ _ hl, rfl⟩
  · rintro ⟨l, rfl, rfl⟩
    exact List.mem_map_of_mem l.mem_locs_unzip

/-- **C74 (nodes).** The nodes of the tree of an accepted te or interface file, in document order
and apart from their exceptions, are those of the statements, without the calls that could not be
expanded: `fileNodes` lists what the text says. -/
theorem C74_order (hc : CommandsOk f.tokens) (h : f.exec expected mod m = .ok (some st)) :
    (Tree.preorderList st.loc.unzip).map bareInfo =
      (sift (Tree.preorderList (fileNodes expected f)) (st.rets.map fun e => decide (e = .success))).1 := by
  obtain ⟨-, -, hn⟩ := C12_tree hc h
  obtain ⟨ns, h1, h2⟩ := hn []
  rw [List.append_nil] at h1
  have := (buildFile_sift f expected (st.rets.map fun e => decide (e = .success))).1
  rw [h1] at this
  rw [h2, this]

/-- **C74 (no node is made up).** -/
theorem C74_node (hc : CommandsOk f.tokens) (h : f.exec expected mod m = .ok (some st)) {i : NodeInfo}
    (hi : i ∈ Tree.preorderList st.loc.unzip) : bareInfo i ∈ Tree.preorderList (fileNodes expected f) := by
  have := List.mem_map_of_mem (f := bareInfo) hi
  rw [C74_order hc h] at this
  exact sift_subset this

/-- **C74 (no statement is lost).** Every statement has its node, unless it is a call of a template that
cannot be expanded. -/
theorem C74_kept (hc : CommandsOk f.tokens) (he : expected = .teFile ∨ expected = .ifFile)
    (h : f.exec expected mod m = .ok (some st)) {j : NodeInfo} (hj : j ∈ Tree.preorderList (fileNodes expected f))
    (ht : ∀ d, j.data = .ifCall d → ¬Faulty st.maps d.name) :
    ∃ i ∈ Tree.preorderList st.loc.unzip, bareInfo i = j := by
  have := sift_keeps (P := fun d => ¬Faulty st.maps d.name) (R := Answer mod st.maps) ?_
    (SourceFile.exec_asks he h) hj ?_ []
  · rw [List.append_nil, ← C74_order hc h] at this
    obtain ⟨i, hi, e⟩ := List.mem_map.1 this
    exact ⟨i, hi, e⟩
  · rintro e d (rfl | ⟨m, m', h1, h2⟩) h3
    · rfl
    · by_cases he : e = .success
      · exact he
      · exact absurd ((expand_faulty h1 he).mono h2) h3
  · intro d hd
    refine ht d ?_
    unfold callOf at hd
    split at hd
    · rename_i e; cases hd; exact e
    · cases hd

/-- **C74 (exceptions).** The exceptions at a node are listed by a command in the file. -/
theorem C74_exceptions (hc : CommandsOk f.tokens) (h : f.exec expected mod m = .ok (some st)) {i : NodeInfo}
    (hi : i ∈ Tree.preorderList st.loc.unzip) {e : Str} (he : i.exceptions = some e) :
    ∃ cmd, Token.command cmd ∈ f.tokens ∧ exceptionsOf cmd = some e := by
  obtain ⟨-, -, hn⟩ := C12_tree hc h
  obtain ⟨ns, h1, h2⟩ := hn []
  have := marks_file (S := fun e => ∃ cmd, Token.command cmd ∈ f.tokens ∧ exceptionsOf cmd = some e) (expected := expected)
    (answers := st.rets.map (fun e => decide (e = .success)) ++ []) (f := f) fun c hc e he => ⟨c, hc, he⟩
  rw [h1] at this
  rw [h2] at hi
  exact this.reverse i hi e he

end

/-! ## The files of a run -/

/-- The flavor of the root node of a file of a kind. -/
def Spec.rootOf : FileFlavor → PlainFlavor
  | .teFile => .teFile
  | .ifFile => .ifFile
  | .fcFile => .fcFile

/-- The text of the te or interface file at `path` has a statement (or header, block, comment, …)
with this node. -/
def Spec.StatementIn (src : Sources) (kind : FileFlavor) (path : Str) (j : NodeInfo) : Prop :=
  (kind = .teFile ∨ kind = .ifFile) ∧
    ∃ s f, src.text path = some s ∧ ParsesTo s f ∧ j ∈ Tree.preorderList (fileNodes (rootOf kind) f)

/-- Line `n` of the fc file at `path` is not ignored, and this is what it says: an entry, or an
error. -/
def Spec.FcLineIn (src : Sources) (path : Str) (n : Nat) (d : NodeData) : Prop :=
  ∃ ls inp, src.fcLines path = some ls ∧ IsLine ls n inp ∧ ¬IgnoredFcLine src.fcMacros inp.len inp.text ∧ NodeOfLine inp d

/-- A command in the text of the file excepts something from the check `id`. -/
def Spec.DisabledIn (src : Sources) (path : Str) (id : Str) : Prop :=
  ∃ s ts n cmd e, src.text path = some s ∧ lexFile s = some ts ∧ (n, Token.command cmd) ∈ ts ∧ exceptionsOf cmd = some e ∧
    id <:+: e

theorem mem_keptLines {α : Type} {ignored : α → Prop} {lines : List α} {n : Nat} {l : α} (h : IsLine lines n l) (hi : ¬ignored l) :
    n ∈ keptLines ignored 1 lines := by
  unfold keptLines
  simp only [List.mem_filterMap]
  refine ⟨(n, l), ?_, by simp [hi]⟩
  obtain ⟨h1, h2⟩ := h
  obtain ⟨h3, h4⟩ := List.getElem?_eq_some_iff.1 h2
  refine List.mem_iff_getElem.2 ⟨n - 1, by simpa using h3, ?_⟩
  simp [h4]
  omega

theorem keptLines_mem {α : Type} {ignored : α → Prop} {lines : List α} {n : Nat} (h : n ∈ keptLines ignored 1 lines) {l : α}
    (hl : IsLine lines n l) : ¬ignored l := by
  unfold keptLines at h
  simp only [List.mem_filterMap] at h
  obtain ⟨⟨k, l'⟩, h1, h2⟩ := h
  simp only at h2
  split at h2
  · cases h2
  · rename_i hn
    cases h2
    obtain ⟨i, hi, e⟩ := List.mem_iff_getElem.1 h1
    simp at e
    obtain ⟨e1, e2⟩ := e
    have := hl.2
    rw [show n - 1 = i by omega, List.getElem?_eq_getElem (by simpa using hi), Option.some.injEq] at this
    rw [← this, e2]
    exact hn

theorem NodeOfLine.unique {inp : FcInput} {d d' : NodeData} (h : NodeOfLine inp d) (h' : NodeOfLine inp d') : d = d' := by
  rcases h with ⟨e, rfl, h⟩ | ⟨rfl, h⟩ <;> rcases h' with ⟨e', rfl, h'⟩ | ⟨rfl, h'⟩
  · rw [h] at h'; cases h'; rfl
  · rw [h] at h'; cases h'
  · rw [h] at h'; cases h'
  · rfl

/-- The nodes of an fc file. -/
theorem fcForest_nodes {src : Sources} {path : Str} {ls : List FcInput} {ns : List FcNode} (hl : src.fcLines path = some ls)
    (h : parseFcFile src.fcMacros (some ls) = .ok (some ns)) (i : NodeInfo) :
    i ∈ Tree.preorderList (fcForest ns) ↔
      i = ⟨.plain .fcFile none, none, 0⟩ ∨ i.exceptions = none ∧ FcLineIn src path i.lineno i.data := by
  obtain ⟨body, rfl, h1, h2⟩ := C37_lines _ _ _ h
  have hm : ∀ ns : List FcNode, i ∈ Tree.preorderList (fcForest ns) ↔ ∃ n ∈ ns, i = ⟨n.data, none, n.lineno⟩ := by
    intro ns
    rw [mem_preorderList]
    simp only [fcForest, List.mem_map]
    constructor
    · rintro ⟨t, ⟨n, hn, rfl⟩, hi⟩
      simp only [Tree.preorder, Tree.preorderList, List.mem_cons, List.not_mem_nil, or_false] at hi
      exact ⟨n, hn, hi⟩
    · rintro ⟨n, hn, rfl⟩
      exact ⟨_, ⟨n, hn, rfl⟩, by simp [Tree.preorder]⟩
  rw [hm]
  simp only [List.mem_cons, exists_eq_or_imp]
  refine or_congr Iff.rfl ⟨?_, ?_⟩
  · rintro ⟨n, hn, rfl⟩
    obtain ⟨inp, h3, h4⟩ := h2 n hn
    refine ⟨rfl, ls, inp, hl, h3, ?_, h4⟩
    exact keptLines_mem (ignored := fun i : FcInput => IgnoredFcLine src.fcMacros i.len i.text) (h1 ▸ List.mem_map_of_mem hn) h3
  · rintro ⟨he, ls', inp, hl', h3, h4, h5⟩
    rw [hl] at hl'; cases hl'
    have := mem_keptLines (ignored := fun i : FcInput => IgnoredFcLine src.fcMacros i.len i.text) h3 h4
    rw [← h1] at this
    obtain ⟨n, hn, e⟩ := List.mem_map.1 this
    refine ⟨n, hn, ?_⟩
    obtain ⟨inp', h6, h7⟩ := h2 n hn
    have : inp' = inp := by
      have h8 := h6.2
      rw [e, h3.2] at h8
      exact (Option.some.inj h8).symm
    subst this
    obtain ⟨d, x, k⟩ := i
    cases he
    cases e
    cases h5.unique h7
    rfl

theorem grow_foldl (ops : List MapOp) (m : Maps) : TemplatesGrow m (ops.foldl MapOp.apply m) :=
  ⟨fun _ _ hx => (templateDecls_foldl ..).2 (.inl hx), fun _ _ hx => (templateCalls_foldl ..).2 (.inl hx)⟩

/-- How a te or interface file was read, before the tables were `M`. -/
def ReadFrom (src : Sources) (M : Maps) (x : PolicyFile) : Prop :=
  ∃ s f mod m st, src.text x.path = some s ∧ ParsesTo s f ∧ f.exec (rootOf x.kind) mod m = .ok (some st) ∧
    x.trees = st.loc.unzip ∧ TemplatesGrow st.maps M

theorem ReadFrom.mono {src : Sources} {M M' : Maps} {x : PolicyFile} (h : ReadFrom src M x)
    (hm : TemplatesGrow M M') : ReadFrom src M' x := by
  obtain ⟨s, f, mod, m, st, h1, h2, h3, h4, h5⟩ := h
  exact ⟨s, f, mod, m, st, h1, h2, h3, h4, h5.trans hm⟩

theorem readAll_from {src : Sources} {suppress : Bool} {config : ConfigCheckData} {kind : FileFlavor}
    (hk : kind = .teFile ∨ kind = .ifFile) {names : List Str} {m m' : Maps} {xs : List PolicyFile}
    (h : readAll (wholeProgram src suppress config) kind names m = some (xs, m')) :
    ∀ x ∈ xs, x.kind = kind ∧ ReadFrom src m' x := by
  induction names generalizing m xs with
  | nil => cases h; simp
  | cons n ns ih =>
    simp only [readAll] at h
    split at h
    · cases h
    · rename_i hne
      simp only [Option.map_eq_some_iff] at h
      obtain ⟨⟨ys, m₁⟩, h1, h2⟩ := h
      cases h2
      intro x hx
      rcases List.mem_cons.1 hx with rfl | hx
      · refine ⟨rfl, ?_⟩
        obtain ⟨ops, -, hops⟩ := readAll_ops hk h1
        have hp : (wholeProgram src suppress config).parser (fileNode kind) n m =
            parseResult m (parseOneFile src n (rootOf kind) m) := by
          rcases hk with rfl | rfl <;> rfl
        rw [hp] at hne hops ⊢
        obtain ⟨s, f, mod, st, ht, hps, hmod, hx, h3, h4⟩ := parseOneFile_module (parseResult_ne (m := m) hne rfl)
        refine ⟨s, f, mod, m, st, ht, hps, hx, h3, ?_⟩
        have h4 : (parseResult m (parseOneFile src n (rootOf kind) m)).2 = st.maps := h4
        rw [hops, h4]
        exact grow_foldl ..
      · exact ih h1 x hx

section
variable {w : Machine} {args : List Opt} {paths : List Str} {c : Course}

theorem Spec.Course.Of.readFrom (hc : c.Of w args paths) :
    ∀ x ∈ c.files, x.kind = .teFile ∨ x.kind = .ifFile → ReadFrom (w.sources c.settings.customFcMacros) c.tables x := by
  have h := hc.read
  simp only [readPolicy, Option.bind_eq_bind, Option.bind_eq_some_iff, Option.pure_def, Option.some.injEq, Prod.mk.injEq] at h
  obtain ⟨⟨i, m1⟩, h1, ⟨ci, m2⟩, h2, ⟨ct, m3⟩, h3, ⟨t, m4⟩, h4, ⟨f, m5⟩, h5, hf, rfl⟩ := h
  obtain ⟨m', b1, -, b3⟩ := C22_least_fixpoint ((i ++ ci).map (·.trees)) m2
  rw [List.map_map] at b1
  have b1' : markTransformInterfaces ((i ++ ci).map fun x => Loc.ofForest x.trees) m2 = some m' := b1
  simp only [b1', Option.getD_some] at h3
  obtain ⟨o2, -, e2⟩ := readAll_ops (.inr rfl) h2
  obtain ⟨o3, -, e3⟩ := readAll_ops (.inl rfl) h3
  obtain ⟨o4, -, e4⟩ := readAll_ops (.inl rfl) h4
  have e5 := readAll_fc h5
  simp only at *
  intro x hx hk
  rw [← hf] at hx
  simp only [List.mem_append] at hx
  rw [e5]
  rcases hx with (hx | hx) | hx
  · exact (readAll_from (.inl rfl) h4 x hx).2
  · refine (readAll_from (.inr rfl) h1 x hx).2.mono ?_
    have h8 : m'.template = m2.template := by rw [b3]
    rw [e4, e3]
    refine .trans ?_ (.trans (.of_eq h8) ((grow_foldl ..).trans (grow_foldl ..)))
    rw [e2]
    exact grow_foldl ..
  · have := ((readAll_mem h5).2 x hx).1
    rw [this] at hk
    rcases hk with hk | hk <;> cases hk

/-- **C74 (every node comes from the text).** -/
theorem C74_text (hc : c.Of w args paths) {x : PolicyFile} (hx : x ∈ c.files) {i : NodeInfo}
    (hi : i ∈ Tree.preorderList x.trees) :
    StatementIn (w.sources c.settings.customFcMacros) x.kind x.path (bareInfo i) ∨
      x.kind = .fcFile ∧ (i = ⟨.plain .fcFile none, none, 0⟩ ∨ i.exceptions = none ∧
        FcLineIn (w.sources c.settings.customFcMacros) x.path i.lineno i.data) := by
  by_cases hk : x.kind = .teFile ∨ x.kind = .ifFile
  · obtain ⟨s, f, mod, m, st, h1, h2, h3, h4, h5⟩ := hc.readFrom x hx hk
    rw [h4] at hi
    exact .inl ⟨hk, s, f, h1, h2, C74_node h2.tokens.1 h3 hi⟩
  · have ht := (C72_files hc).2 x hx
    obtain ⟨kind, path, trees⟩ := x
    cases kind <;> simp at hk
    obtain ⟨ls, ns, h1, h2, h3⟩ := ht
    have h3 : trees = fcForest ns := h3
    rw [h3] at hi
    exact .inr ⟨rfl, (fcForest_nodes h1 h2 i).1 hi⟩

/-- **C74 (the text is in the tree).** Every statement of a checked te or interface file has its node,
unless it is a call of a template that cannot be expanded, and it is only excepted from checks that a command names. -/
theorem C74_statement (hc : c.Of w args paths) {x : PolicyFile} (hx : x ∈ c.files) {j : NodeInfo}
    (hj : StatementIn (w.sources c.settings.customFcMacros) x.kind x.path j)
    (ht : ∀ d, j.data = .ifCall d → ¬Faulty c.tables d.name) :
    ∃ i ∈ Tree.preorderList x.trees, bareInfo i = j ∧ ∀ e, i.exceptions = some e → ∀ id, id <:+: e →
      DisabledIn (w.sources c.settings.customFcMacros) x.path id := by
  obtain ⟨hk, s', f', t1, t2, hj⟩ := hj
  obtain ⟨s, f, mod, m, st, h1, h2, h3, h4, h5⟩ := hc.readFrom x hx hk
  rw [t1] at h1; cases h1
  have h3 : f'.exec (rootOf x.kind) mod m = .ok (some st) := by
    rw [← f'.plain_exec, C68_unambiguous_text t2 h2, f.plain_exec]; exact h3
  have hk' : rootOf x.kind = .teFile ∨ rootOf x.kind = .ifFile := by
    rcases hk with hk | hk <;> rw [hk] <;> simp [rootOf]
  obtain ⟨i, hi, e⟩ := C74_kept t2.tokens.1 hk' h3 hj fun d hd hf => ht d hd (hf.mono h5)
  refine ⟨i, h4 ▸ hi, e, fun ex he id hid => ?_⟩
  obtain ⟨cmd, hc1, hc2⟩ := C74_exceptions t2.tokens.1 h3 hi he
  obtain ⟨ts, hl, ha⟩ := t2
  rw [← f'.at_toks ha] at hc1
  obtain ⟨⟨n, t⟩, hm, rfl⟩ := List.mem_map.1 hc1
  exact ⟨s', ts, n, cmd, ex, t1, hl, hm, hc2, hid⟩

end

/-! ## From the text to the findings -/

/-- A node on its own. -/
def Spec.alone (d : NodeData) : Loc := ⟨.mk ⟨d, none, 0⟩ [], [], [], []⟩

/-- The checks that look at what a node says, not at its surroundings. -/
def Spec.localChecks : List CheckFn :=
  [.unorderedPerms, .noSelf, .fileContextTypesInMod, .uselessSemicolon, .bareModuleStatement, .genContextNoRange,
    .unquotedGenRequireBlock, .permMacroClassMismatch, .fileContextRegex, .emptyIfCallArg, .spaceIfCallArg, .riskyAllowPerm,
    .moduleFileNameMismatch, .unknownInterfaceCall, .fileContextErrorNodes, .fileContextUsers, .fileContextRoles,
    .fileContextTypesExist, .declarationInterfaceNameclash, .unknownPermission, .unknownClass]

/-- What such a check finds at a node that says `d`. -/
def Spec.FindsIn (fn : CheckFn) (m : Maps) (data : CheckData) (d : NodeData) (res : CheckResult) : Prop :=
  Finds fn m data (alone d) res

theorem finds_local {fn : CheckFn} (h : fn ∈ localChecks) {m : Maps} {data : CheckData} {l : Loc} {res : CheckResult} :
    Finds fn m data l res ↔ FindsIn fn m data l.info.data res := by
  have e : fn.run m data l .init = fn.run m data (alone l.info.data) .init := by
    have hd : (alone l.info.data).data = l.data := rfl
    have hf : (alone l.info.data).flavor = l.flavor := rfl
    simp only [localChecks, List.mem_cons, List.not_mem_nil, or_false] at h
    rcases h with rfl | rfl | rfl | rfl | rfl | rfl | rfl | rfl | rfl | rfl | rfl | rfl | rfl | rfl | rfl | rfl | rfl | rfl |
      rfl | rfl | rfl <;> rfl
  unfold FindsIn Finds
  rw [e]

theorem local_rows : ∀ row ∈ checkTable, row.fn ∈ localChecks →
    NodeFlavor.cleanup ∉ row.on ∧ NodeFlavor.fcFile ∉ row.on ∧ row.fn ≠ .teOrder ∧ row.fn ≠ .permMacroAvailable := by decide

/-- The check is selected: by its severity, by the configuration and by the tables at the start. -/
def Spec.Course.Selects (c : Course) (row : CheckRow) : Prop :=
  atLeast row.sev c.settings.severity = true ∧ isCheckEnabled row.id c.settings.enableConf = true ∧
    row.needs c.scan.maps = true

/-- What a check gets to know about a file. -/
def Spec.Course.dataFor (c : Course) (kind : FileFlavor) (path : Str) : CheckData :=
  ⟨cutLastDot (basename path), basename path, kind, c.settings.checkData⟩

section
variable {w : Machine} {args : List Opt} {paths : List Str} {c : Course} {r : MainResult}

theorem findings_of (h : selintMain w args paths = .ok r) (hr : Reaches w.config args paths.length) (h70 : r.status ≠ 70)
    (ho : Opt.summaryOnly ∉ args) (hc : c.Of w args paths) {row : CheckRow} (hrow : row ∈ checkTable)
    (hloc : row.fn ∈ localChecks) {f : Finding} (hs : f.result.severity = row.sev) (hn : f.result.checkId = row.num) :
    f ∈ r.findings ↔ c.Selects row ∧ ∃ x ∈ c.files, f.filename = basename x.path ∧ ∃ i ∈ Tree.preorderList x.trees,
      i.flavor ∈ row.on ∧ (∀ e, i.exceptions = some e → ¬row.id <:+: e) ∧ f.lineno = i.lineno ∧
        FindsIn row.fn c.tables (c.dataFor x.kind x.path) i.data f.result := by
  obtain ⟨c', hc', h⟩ := C72_findings h hr h70 ho
  cases hc.unique hc'
  obtain ⟨r1, r2, r3, r4⟩ := local_rows row hrow hloc
  rw [h row hrow (fun h => h.elim r3 r4) f hs hn]
  constructor
  · rintro ⟨h1, h2, h3, x, hx, h4, l, h5, h6, h7, h8, h9⟩
    refine ⟨⟨h1, h2, h3⟩, x, hx, h4, l.info, ?_, h6, ?_, h8, finds_local hloc |>.1 h9⟩
    · rcases h5 with h5 | rfl
      · exact loc_of_info.2 ⟨l, h5, rfl⟩
      · exact absurd h6 r1
    · exact fun e he hi => h7 ⟨e, he, hi⟩
  · rintro ⟨⟨h1, h2, h3⟩, x, hx, h4, i, h5, h6, h7, h8, h9⟩
    obtain ⟨l, h10, rfl⟩ := loc_of_info.1 h5
    exact ⟨h1, h2, h3, x, hx, h4, l, .inl h10, h6, fun ⟨e, he, hi⟩ => h7 e he hi, h8, (finds_local hloc).2 h9⟩

/-- **C74 (no false finding).** For every finding that is printed by a check that looks at what a
node says, the text of a checked file has a statement, or an fc line, at the line of the finding, in
which the check finds just this with what is known from all files. -/
theorem C74_reported (h : selintMain w args paths = .ok r) (hr : Reaches w.config args paths.length) (h70 : r.status ≠ 70)
    (ho : Opt.summaryOnly ∉ args) (hc : c.Of w args paths) {row : CheckRow} (hrow : row ∈ checkTable)
    (hloc : row.fn ∈ localChecks) {f : Finding} (hs : f.result.severity = row.sev) (hn : f.result.checkId = row.num)
    (hf : f ∈ r.findings) :
    c.Selects row ∧ ∃ x ∈ c.files, f.filename = basename x.path ∧ ∃ d : NodeData, d.flavor ∈ row.on ∧
      FindsIn row.fn c.tables (c.dataFor x.kind x.path) d f.result ∧
      (StatementIn (w.sources c.settings.customFcMacros) x.kind x.path ⟨d, none, f.lineno⟩ ∨
        x.kind = .fcFile ∧ FcLineIn (w.sources c.settings.customFcMacros) x.path f.lineno d) := by
  obtain ⟨h1, x, hx, h2, i, h3, h4, -, h5, h6⟩ := (findings_of h hr h70 ho hc hrow hloc hs hn).1 hf
  refine ⟨h1, x, hx, h2, i.data, h4, h6, ?_⟩
  rw [h5]
  rcases C74_text hc hx h3 with h7 | ⟨hk, rfl | ⟨-, h7⟩⟩
  · exact .inl h7
  · exact absurd h4 (local_rows row hrow hloc).2.1
  · exact .inr ⟨hk, h7⟩

/-- **C74 (no statement is missed).** If a selected check of this kind finds something in a statement
of a checked te or interface file, it is printed with the line of the statement; unless the
statement is a call of a template that cannot be expanded, or a command in the file excepts something from the check. -/
theorem C74_found (h : selintMain w args paths = .ok r) (hr : Reaches w.config args paths.length) (h70 : r.status ≠ 70)
    (ho : Opt.summaryOnly ∉ args) (hc : c.Of w args paths) {row : CheckRow} (hrow : row ∈ checkTable)
    (hloc : row.fn ∈ localChecks) (hsel : c.Selects row) {x : PolicyFile} (hx : x ∈ c.files) {j : NodeInfo}
    (hj : StatementIn (w.sources c.settings.customFcMacros) x.kind x.path j) (hon : j.flavor ∈ row.on)
    (ht : ∀ d, j.data = .ifCall d → ¬Faulty c.tables d.name)
    (hd : ¬DisabledIn (w.sources c.settings.customFcMacros) x.path row.id) {res : CheckResult}
    (hs : res.severity = row.sev) (hn : res.checkId = row.num)
    (hf : FindsIn row.fn c.tables (c.dataFor x.kind x.path) j.data res) :
    ⟨basename x.path, j.lineno, res⟩ ∈ r.findings := by
  obtain ⟨i, h1, rfl, h2⟩ := C74_statement hc hx hj ht
  exact (findings_of h hr h70 ho hc hrow hloc hs hn).2 ⟨hsel, x, hx, rfl, i, h1, hon, fun e he hi => hd (h2 e he _ hi), rfl, hf⟩

/-- **C74 (no fc line is missed).** -/
theorem C74_found_fc (h : selintMain w args paths = .ok r) (hr : Reaches w.config args paths.length) (h70 : r.status ≠ 70)
    (ho : Opt.summaryOnly ∉ args) (hc : c.Of w args paths) {row : CheckRow} (hrow : row ∈ checkTable)
    (hloc : row.fn ∈ localChecks) (hsel : c.Selects row) {path : Str} (hp : path ∈ c.scan.fc) {n : Nat} {d : NodeData}
    (hj : FcLineIn (w.sources c.settings.customFcMacros) path n d) (hon : d.flavor ∈ row.on) {res : CheckResult}
    (hs : res.severity = row.sev) (hn : res.checkId = row.num)
    (hf : FindsIn row.fn c.tables (c.dataFor .fcFile path) d res) :
    ⟨basename path, n, res⟩ ∈ r.findings := by
  obtain ⟨h1, h2⟩ := C72_files hc
  obtain ⟨x, hx, e⟩ : ∃ x ∈ c.files, (x.kind, x.path) = (.fcFile, path) := by
    have : (FileFlavor.fcFile, path) ∈ c.files.map fun x => (x.kind, x.path) := by
      rw [h1]; simp [hp]
    obtain ⟨x, hx, e⟩ := List.mem_map.1 this
    exact ⟨x, hx, e⟩
  have ht := h2 x hx
  obtain ⟨kind, p, trees⟩ := x
  cases e
  obtain ⟨ls, ns, h3, h4, h5⟩ := ht
  have h5 : trees = fcForest ns := h5
  refine (findings_of h hr h70 ho hc hrow hloc hs hn).2 ⟨hsel, _, hx, rfl, ⟨d, none, n⟩, ?_, hon, fun _ he => (nomatch he), rfl, hf⟩
  rw [h5]
  exact (fcForest_nodes h3 h4 _).2 (.inr ⟨rfl, hj⟩)

end

/-! ## No statement is an fc entry -/

/-- None of the nodes is of an fc file. -/
def NoFc (ts : List Tree) : Prop :=
  ∀ i ∈ Tree.preorderList ts, i.flavor ≠ .fcEntry ∧ i.flavor ≠ .error

theorem NoFc.nil : NoFc [] := fun i hi => by simp [Tree.preorderList] at hi

theorem NoFc.append {a b : List Tree} (ha : NoFc a) (hb : NoFc b) : NoFc (a ++ b) := by
  intro i hi
  rw [preorderList_app, List.mem_append] at hi
  exact hi.elim (ha i) (hb i)

theorem NoFc.cons {d : NodeData} {e : Option Str} {n : Nat} {cs ts : List Tree} (hd : d.flavor ≠ .fcEntry ∧ d.flavor ≠ .error)
    (hc : NoFc cs) (ht : NoFc ts) : NoFc (.mk ⟨d, e, n⟩ cs :: ts) := by
  intro i hi
  simp only [Tree.preorderList, Tree.preorder, List.mem_append, List.mem_cons] at hi
  rcases hi with (rfl | hi) | hi
  · exact hd
  · exact hc i hi
  · exact ht i hi

theorem NoFc.leaves {α : Type} {d : α → NodeData} {n : α → Nat} (hd : ∀ a, (d a).flavor ≠ .fcEntry ∧ (d a).flavor ≠ .error)
    (l : List α) : NoFc (l.map fun a => leaf (d a) (n a)) := by
  induction l with
  | nil => exact .nil
  | cons a l ih => exact .cons (hd a) .nil ih

theorem NoFc.block {d : NodeData} {n : Nat} {cs : List Tree} (hd : d.flavor ≠ .fcEntry ∧ d.flavor ≠ .error)
    (hc : NoFc cs) : NoFc [blockNode d n cs] :=
  .cons hd (.cons (by decide) .nil hc) .nil

theorem simple_noFc (s : Simple) : (simpleData s).flavor ≠ .fcEntry ∧ (simpleData s).flavor ≠ .error := by
  cases s <;> try simp [simpleData, NodeData.flavor, PlainFlavor.toFlavor]
  rename_i a
  cases a <;> simp

mutual
theorem reqLines_noFc : ∀ d : ReqLines, NoFc (reqLinesNodes d)
  | .one l => reqLine_noFc l
  | .more ls l => (reqLines_noFc ls).append (reqLine_noFc l)
theorem reqLine_noFc : ∀ d : ReqLine, NoFc (reqLineNodes d)
  | .bare s => reqStmt_noFc s
  | .withCommand s _ => reqStmt_noFc s
theorem reqStmt_noFc : ∀ d : ReqStmt, NoFc (reqStmtNodes d)
  | .decls line fl _ _ names => .leaves (d := fun n => .decl ⟨fl, n, []⟩) (n := fun _ => line) (fun _ => by simp [NodeData.flavor]) names.value
  | .cls line n l => .cons ⟨fun h => (nomatch h), fun h => (nomatch h)⟩ .nil .nil
  | .ifdef line _ _ _ body => .block (by decide) (reqLines_noFc body)
  | .comment => .nil
end

mutual
theorem lines_noFc : ∀ d : Lines, NoFc (linesNodes d)
  | .one l => line_noFc l
  | .more ls l => (lines_noFc ls).append (line_noFc l)
theorem line_noFc : ∀ d : Line, NoFc (lineNodes d)
  | .bare s => stmt_noFc s
  | .withCommand s _ => stmt_noFc s
theorem stmt_noFc : ∀ d : Stmt, NoFc (stmtNodes d)
  | .silent _ => .nil
  | .simple line s => .cons (simple_noFc s) (.leaves (n := fun _ => line) (fun _ => by simp [NodeData.flavor, PlainFlavor.toFlavor]) _) .nil
  | .optional line cmd body => .block (by decide) (lines_noFc body)
  | .optionalEmpty line cmd => .block (by decide) .nil
  | .optionalElse line cmd body elseLine els =>
    NoFc.append (.block (by decide) (lines_noFc body)) (.block (by decide) (lines_noFc els))
  | .genRequire line cmd cmd' body => .block (by decide) (reqLines_noFc body)
  | .genRequireUnquoted line cmd body => .block (by decide) (reqLines_noFc body)
  | .require line cmd body => .block (by decide) (reqLines_noFc body)
  | .ifdef line _ _ args => .block (by decide) (args_noFc args)
  | .ifelse line args => .block (by decide) (args_noFc args)
  | .userdebugOrEng body => lines_noFc body
  | .tunable line _ _ args => .block (by decide) (args_noFc args)
  | .boolean line cmd _ body => .block (by decide) (lines_noFc body)
  | .booleanElse line cmd _ body els => .block (by decide) ((lines_noFc body).append (lines_noFc els))
  | .define line _ _ _ => .block (by decide) .nil
theorem args_noFc : ∀ d : M4Args, NoFc (argsNodes d)
  | .one line a => .block (by decide) (arg_noFc a)
  | .more as line a => (args_noFc as).append (.block (by decide) (arg_noFc a))
theorem arg_noFc : ∀ d : M4Argument, NoFc (argNodes d)
  | .empty => .nil
  | .emptyQuoted => .nil
  | .quoted body => lines_noFc body
  | .word _ => .nil
end

theorem ifDef_noFc (d : IfDef) : NoFc [ifDefNode d] := by
  refine .block ?_ ?_
  · cases d.isTemplate <;> simp [NodeData.flavor, PlainFlavor.toFlavor]
  · cases d.body with
    | none => exact .nil
    | some b => exact lines_noFc b

theorem ifLines_noFc (ls : List IfLine) : NoFc (ls.map ifLineNode) := by
  induction ls with
  | nil => exact .nil
  | cons l ls ih =>
    have : NoFc [ifLineNode l] := by
      cases l with
      | defn d => exact ifDef_noFc d
      | comment n => exact .cons (by decide) .nil .nil
    exact this.append ih

theorem file_noFc {e : PlainFlavor} (he : e = .teFile ∨ e = .ifFile) (f : SourceFile) : NoFc (fileNodes e f) := by
  have hroot : ∀ ts, NoFc ts → NoFc (leaf (.plain e none) 0 :: ts) := fun ts h =>
    .cons (by rcases he with rfl | rfl <;> decide) .nil h
  have hcs : ∀ cs : List Nat, NoFc (cs.map (leaf (.plain .comment none))) := fun cs =>
    .leaves (d := fun _ => .plain .comment none) (n := fun a => a) (fun _ => by decide) cs
  cases f with
  | empty => exact .cons (by decide) .nil .nil
  | te cs hd b =>
    refine hroot _ ((hcs cs).append (.cons ?_ .nil (lines_noFc b)))
    exact ⟨fun h => (nomatch h), fun h => (nomatch h)⟩
  | iface cs d ls => exact hroot _ ((hcs cs).append ((ifDef_noFc d).append (ifLines_noFc ls)))
  | spt cs _ _ => exact hroot _ (hcs cs)
  | av cs _ _ => exact hroot _ (hcs cs)
  | comments c cs => exact hroot _ (hcs (c :: cs))

theorem Spec.StatementIn.noFc {src : Sources} {kind : FileFlavor} {path : Str} {j : NodeInfo}
    (h : StatementIn src kind path j) : j.flavor ≠ .fcEntry ∧ j.flavor ≠ .error := by
  obtain ⟨hk, s, f, -, -, hj⟩ := h
  refine file_noFc ?_ f j hj
  rcases hk with rfl | rfl <;> simp [rootOf]

/-! ## File contexts -/

theorem fc_rows : ∀ row ∈ checkTable, row.on = [.fcEntry] ∨ row.on = [.error] → row.fn ∈ localChecks := by decide

section
variable {w : Machine} {args : List Opt} {paths : List Str} {c : Course} {r : MainResult}

/-- **C74 (file contexts).** A check of fc entries (or of bad lines) prints something exactly if a
line of a checked fc file that is not ignored is such an entry and the check finds this in it. -/
theorem C74_fc (h : selintMain w args paths = .ok r) (hr : Reaches w.config args paths.length) (h70 : r.status ≠ 70)
    (ho : Opt.summaryOnly ∉ args) (hc : c.Of w args paths) {row : CheckRow} (hrow : row ∈ checkTable)
    (hon : row.on = [.fcEntry] ∨ row.on = [.error]) {f : Finding}
    (hs : f.result.severity = row.sev) (hn : f.result.checkId = row.num) :
    f ∈ r.findings ↔ c.Selects row ∧ ∃ path ∈ c.scan.fc, f.filename = basename path ∧ ∃ d : NodeData, d.flavor ∈ row.on ∧
      FcLineIn (w.sources c.settings.customFcMacros) path f.lineno d ∧
      FindsIn row.fn c.tables (c.dataFor .fcFile path) d f.result := by
  have hloc := fc_rows row hrow hon
  constructor
  · intro hf
    obtain ⟨h1, x, hx, h2, d, h3, h4, h5⟩ := C74_reported h hr h70 ho hc hrow hloc hs hn hf
    rcases h5 with h5 | ⟨hk, h5⟩
    · have := h5.noFc
      rcases hon with hon | hon <;> rw [hon, List.mem_singleton] at h3
      · exact absurd h3 this.1
      · exact absurd h3 this.2
    · have hm := List.mem_map_of_mem (f := fun x : PolicyFile => (x.kind, x.path)) hx
      rw [(C72_files hc).1, hk] at hm
      simp only [List.mem_append, List.mem_map, Prod.mk.injEq, reduceCtorEq, false_and, and_false, exists_const, false_or,
        true_and, exists_eq_right] at hm
      rw [hk] at h4
      exact ⟨h1, x.path, hm, h2, d, h3, h5, h4⟩
  · rintro ⟨h1, path, hp, h2, d, h3, h4, h5⟩
    have := C74_found_fc h hr h70 ho hc hrow hloc h1 hp h4 h3 hs hn h5
    rw [← h2] at this
    exact this

theorem finds_fc {k : FcEntry → SelContext → Option CheckResult} {d : NodeData} (hd : d.flavor = .fcEntry) {res : CheckResult} :
    setupForFcCheck (alone d) k = some res ↔ ∃ e ctx, d = .fc e ∧ e.context = some ctx ∧ k e ctx = some res := by
  obtain ⟨e, h⟩ := data_fc (l := alone d) hd
  have h : d = .fc e := h
  subst h
  unfold setupForFcCheck
  simp only [alone, Loc.data, Tree.info]
  cases he : e.context with
  | none =>
    refine ⟨fun h => (nomatch h), ?_⟩
    rintro ⟨e', ctx, h1, h2, -⟩
    cases h1
    rw [he] at h2
    cases h2
  | some ctx =>
    refine ⟨fun h => ⟨e, ctx, rfl, he, h⟩, ?_⟩
    rintro ⟨e', ctx', h1, h2, h3⟩
    cases h1
    rw [he] at h2
    cases h2
    exact h3

theorem finds_stateless {m : Maps} {data : CheckData} {l : Loc} {fn : CheckFn} {o : Option CheckResult} {res : CheckResult}
    (h : fn.run m data l .init = stateless .init (.ok o)) : Finds fn m data l res ↔ o = some res := by
  unfold Finds
  rw [h]
  constructor
  · rintro ⟨s, hs⟩; cases hs; rfl
  · rintro rfl; exact ⟨_, rfl⟩

theorem row_E2 : ∀ row ∈ checkTable, row.sev = 'E' → row.num = 2 → row.fn = .fileContextErrorNodes ∧ row.on = [.error] := by
  decide
theorem row_E3 : ∀ row ∈ checkTable, row.sev = 'E' → row.num = 3 → row.fn = .fileContextUsers ∧ row.on = [.fcEntry] := by
  decide
theorem row_E4 : ∀ row ∈ checkTable, row.sev = 'E' → row.num = 4 → row.fn = .fileContextRoles ∧ row.on = [.fcEntry] := by
  decide
theorem row_E5 : ∀ row ∈ checkTable, row.sev = 'E' → row.num = 5 → row.fn = .fileContextTypesExist ∧ row.on = [.fcEntry] := by
  decide
theorem row_W10 : ∀ row ∈ checkTable, row.sev = 'W' → row.num = 10 → row.fn = .unknownInterfaceCall ∧ row.on = [.ifCall] := by
  decide

/-- The line of the fc file is an entry with this context. -/
def Spec.FcContextIn (src : Sources) (path : Str) (n : Nat) (ctx : SelContext) : Prop :=
  ∃ e, FcLineIn src path n (.fc e) ∧ e.context = some ctx

/-- **C74 (E-002).** A run with E-002 selected prints "Bad file context format" exactly for the
lines of the checked fc files that are neither ignored nor parsed as an entry. -/
theorem C74_fc_format (h : selintMain w args paths = .ok r) (hr : Reaches w.config args paths.length) (h70 : r.status ≠ 70)
    (ho : Opt.summaryOnly ∉ args) (hc : c.Of w args paths) {row : CheckRow} (hrow : row ∈ checkTable) (hsev : row.sev = 'E')
    (hnum : row.num = 2) (hsel : c.Selects row) {b : Str} {n : Nat} {msg : Str} :
    (⟨b, n, ⟨'E', 2, msg⟩⟩ : Finding) ∈ r.findings ↔ msg = cs!"Bad file context format" ∧ ∃ path ∈ c.scan.fc, b = basename path ∧
      FcLineIn (w.sources c.settings.customFcMacros) path n (.plain .error none) := by
  obtain ⟨hfn, hon⟩ := row_E2 row hrow hsev hnum
  rw [C74_fc h hr h70 ho hc hrow (.inr hon) hsev.symm hnum.symm, hfn, hon]
  have key : ∀ d : NodeData, d.flavor = .error → ∀ data, FindsIn .fileContextErrorNodes c.tables data d ⟨'E', 2, msg⟩ ↔
      msg = cs!"Bad file context format" := by
    intro d hd data
    rw [FindsIn, finds_stateless (o := checkFileContextErrorNodes (alone d)) rfl, checkFileContextErrorNodes,
      if_neg (not_not_intro (show (alone d).flavor = .error from hd))]
    simp [eq_comm]
  constructor
  · rintro ⟨-, path, hp, h1, d, h2, h3, h4⟩
    rw [List.mem_singleton] at h2
    refine ⟨(key d h2 _).1 h4, path, hp, h1, ?_⟩
    obtain ⟨ls, inp, t1, t2, t3, t4⟩ := h3
    rcases t4 with ⟨e, rfl, -⟩ | ⟨rfl, t4⟩
    · cases h2
    · exact ⟨ls, inp, t1, t2, t3, .inr ⟨rfl, t4⟩⟩
  · rintro ⟨h1, path, hp, h2, h3⟩
    exact ⟨hsel, path, hp, h2, _, List.mem_singleton.2 rfl, h3, (key _ rfl _).2 h1⟩

theorem fc_context {fn : CheckFn} {k : SelContext → Option CheckResult} {data : Str → CheckData} {src : Sources} {m : Maps}
    {fcs : List Str} {b : Str} {n : Nat} {res : CheckResult}
    (hfn : ∀ d data, fn.run m data (alone d) .init = stateless .init (.ok (setupForFcCheck (alone d) fun _ ctx => k ctx))) :
    (∃ path ∈ fcs, b = basename path ∧ ∃ d : NodeData, d.flavor ∈ [NodeFlavor.fcEntry] ∧ FcLineIn src path n d ∧
      FindsIn fn m (data path) d res) ↔
    ∃ path ∈ fcs, b = basename path ∧ ∃ ctx, FcContextIn src path n ctx ∧ k ctx = some res := by
  refine exists_congr fun path => and_congr_right fun _ => and_congr_right fun _ => ?_
  constructor
  · rintro ⟨d, h1, h2, h3⟩
    rw [List.mem_singleton] at h1
    rw [FindsIn, finds_stateless (hfn _ _), finds_fc h1] at h3
    obtain ⟨e, ctx, rfl, h4, h5⟩ := h3
    exact ⟨ctx, ⟨e, h2, h4⟩, h5⟩
  · rintro ⟨ctx, ⟨e, h2, h4⟩, h5⟩
    refine ⟨.fc e, List.mem_singleton.2 rfl, h2, ?_⟩
    rw [FindsIn, finds_stateless (hfn _ _), finds_fc rfl]
    exact ⟨e, ctx, rfl, h4, h5⟩

/-- **C74 (E-003).** The users of file contexts that nothing declares. -/
theorem C74_fc_users (h : selintMain w args paths = .ok r) (hr : Reaches w.config args paths.length) (h70 : r.status ≠ 70)
    (ho : Opt.summaryOnly ∉ args) (hc : c.Of w args paths) {row : CheckRow} (hrow : row ∈ checkTable) (hsev : row.sev = 'E')
    (hnum : row.num = 3) (hsel : c.Selects row) {b : Str} {n : Nat} {msg : Str} :
    (⟨b, n, ⟨'E', 3, msg⟩⟩ : Finding) ∈ r.findings ↔ ∃ path ∈ c.scan.fc, b = basename path ∧ ∃ ctx,
      FcContextIn (w.sources c.settings.customFcMacros) path n ctx ∧ c.tables.lookUpDecl ctx.user .user = none ∧
      msg = cs!"Nonexistent user (" ++ ctx.user ++ cs!") listed in fc_entry" := by
  obtain ⟨hfn, hon⟩ := row_E3 row hrow hsev hnum
  rw [C74_fc h hr h70 ho hc hrow (.inl hon) hsev.symm hnum.symm, hfn, hon, and_iff_right hsel, fc_context (k := fun context =>
    match c.tables.lookUpDecl context.user .user with
    | none => some ⟨'E', 3, cs!"Nonexistent user (" ++ context.user ++ cs!") listed in fc_entry"⟩
    | some _ => none) fun d data => rfl]
  refine exists_congr fun path => and_congr_right fun _ => and_congr_right fun _ => exists_congr fun ctx => and_congr_right fun _ => ?_
  cases c.tables.lookUpDecl ctx.user .user <;> simp [eq_comm]

/-- **C74 (E-004).** The roles of file contexts that nothing declares. -/
theorem C74_fc_roles (h : selintMain w args paths = .ok r) (hr : Reaches w.config args paths.length) (h70 : r.status ≠ 70)
    (ho : Opt.summaryOnly ∉ args) (hc : c.Of w args paths) {row : CheckRow} (hrow : row ∈ checkTable) (hsev : row.sev = 'E')
    (hnum : row.num = 4) (hsel : c.Selects row) {b : Str} {n : Nat} {msg : Str} :
    (⟨b, n, ⟨'E', 4, msg⟩⟩ : Finding) ∈ r.findings ↔ ∃ path ∈ c.scan.fc, b = basename path ∧ ∃ ctx,
      FcContextIn (w.sources c.settings.customFcMacros) path n ctx ∧ c.tables.lookUpDecl ctx.role .role = none ∧
      msg = cs!"Nonexistent role (" ++ ctx.role ++ cs!") listed in fc_entry" := by
  obtain ⟨hfn, hon⟩ := row_E4 row hrow hsev hnum
  rw [C74_fc h hr h70 ho hc hrow (.inl hon) hsev.symm hnum.symm, hfn, hon, and_iff_right hsel, fc_context (k := fun context =>
    match c.tables.lookUpDecl context.role .role with
    | none => some ⟨'E', 4, cs!"Nonexistent role (" ++ context.role ++ cs!") listed in fc_entry"⟩
    | some _ => none) fun d data => rfl]
  refine exists_congr fun path => and_congr_right fun _ => and_congr_right fun _ => exists_congr fun ctx => and_congr_right fun _ => ?_
  cases c.tables.lookUpDecl ctx.role .role <;> simp [eq_comm]

/-- **C74 (E-005).** The types of file contexts that nothing declares. -/
theorem C74_fc_types (h : selintMain w args paths = .ok r) (hr : Reaches w.config args paths.length) (h70 : r.status ≠ 70)
    (ho : Opt.summaryOnly ∉ args) (hc : c.Of w args paths) {row : CheckRow} (hrow : row ∈ checkTable) (hsev : row.sev = 'E')
    (hnum : row.num = 5) (hsel : c.Selects row) {b : Str} {n : Nat} {msg : Str} :
    (⟨b, n, ⟨'E', 5, msg⟩⟩ : Finding) ∈ r.findings ↔ ∃ path ∈ c.scan.fc, b = basename path ∧ ∃ ctx,
      FcContextIn (w.sources c.settings.customFcMacros) path n ctx ∧ c.tables.lookUpDecl ctx.type .type = none ∧
      msg = cs!"Nonexistent type (" ++ ctx.type ++ cs!") listed in fc_entry" := by
  obtain ⟨hfn, hon⟩ := row_E5 row hrow hsev hnum
  rw [C74_fc h hr h70 ho hc hrow (.inl hon) hsev.symm hnum.symm, hfn, hon, and_iff_right hsel, fc_context (k := fun context =>
    match c.tables.lookUpDecl context.type .type with
    | none => some ⟨'E', 5, cs!"Nonexistent type (" ++ context.type ++ cs!") listed in fc_entry"⟩
    | some _ => none) fun d data => rfl]
  refine exists_congr fun path => and_congr_right fun _ => and_congr_right fun _ => exists_congr fun ctx => and_congr_right fun _ => ?_
  cases c.tables.lookUpDecl ctx.type .type <;> simp [eq_comm]

/-- A name is introduced by the files of the policy: one of them declares it outside require blocks
and templates, or calls a template with a declaration of which the name is an instance. -/
def Spec.Course.Introduces (c : Course) (w : Machine) (fl : DeclFlavor) (n : Str) : Prop :=
  ∃ mod f, c.Says w mod f ∧ ((fl, n) ∈ (fileFacts mod f).flatMap declared ∨
    ∃ cl ins, Fact.calls cl ins ∈ fileFacts mod f ∧ InstanceOf c.tables cl.name (fl, n))

/-- **C74 (a declared type is never called nonexistent).** -/
theorem C74_fc_declared (h : selintMain w args paths = .ok r) (hr : Reaches w.config args paths.length) (h70 : r.status ≠ 70)
    (ho : Opt.summaryOnly ∉ args) (hc : c.Of w args paths) {row : CheckRow} (hrow : row ∈ checkTable) (hsev : row.sev = 'E')
    (hnum : row.num = 5) (hsel : c.Selects row) {t : Str} {mod : Str} {f : SourceFile} (hf : c.Says w mod f)
    (hd : (.type, t) ∈ (fileFacts mod f).flatMap declared) (b : Str) (n : Nat) :
    (⟨b, n, ⟨'E', 5, cs!"Nonexistent type (" ++ t ++ cs!") listed in fc_entry"⟩⟩ : Finding) ∉ r.findings := by
  intro hm
  obtain ⟨path, -, -, ctx, -, h1, h2⟩ := (C74_fc_types h hr h70 ho hc hrow hsev hnum hsel).1 hm
  rw [List.append_cancel_right_eq, List.append_cancel_left_eq] at h2
  subst h2
  exact C73_declared hc hf hd h1

/-- **C74 (an undeclared type is always reported).** The type of a file context that the files do not
introduce, and that no support file declares, is reported with the line of the entry. -/
theorem C74_fc_undeclared (h : selintMain w args paths = .ok r) (hr : Reaches w.config args paths.length) (h70 : r.status ≠ 70)
    (ho : Opt.summaryOnly ∉ args) (hc : c.Of w args paths) {row : CheckRow} (hrow : row ∈ checkTable) (hsev : row.sev = 'E')
    (hnum : row.num = 5) (hsel : c.Selects row) {path : Str} (hp : path ∈ c.scan.fc) {n : Nat} {ctx : SelContext}
    (hl : FcContextIn (w.sources c.settings.customFcMacros) path n ctx)
    (hs : c.scan.maps.lookUpDecl ctx.type .type = none) (hi : ¬c.Introduces w .type ctx.type) :
    (⟨basename path, n, ⟨'E', 5, cs!"Nonexistent type (" ++ ctx.type ++ cs!") listed in fc_entry"⟩⟩ : Finding) ∈ r.findings := by
  refine (C74_fc_types h hr h70 ho hc hrow hsev hnum hsel).2 ⟨path, hp, rfl, ctx, hl, ?_, rfl⟩
  cases hd : c.tables.lookUpDecl ctx.type .type with
  | none => rfl
  | some md =>
    rcases C73_only hc (by rw [hd]; simp) with h1 | ⟨mod, f, h1, h2 | h2 | ⟨h2, -⟩⟩
    · exact absurd hs h1
    · exact absurd ⟨mod, f, h1, .inl h2⟩ hi
    · exact absurd ⟨mod, f, h1, .inr h2⟩ hi
    · cases h2

/-! ## Unknown interfaces -/

/-- The name begins with the name of a known module, or an abbreviation for one, and an
underscore. -/
def Spec.ModulePrefixed (m : Maps) (n : Str) : Prop :=
  ∃ p s, n = p ++ '_' :: s ∧ (m.lookUpMod p ≠ none ∨ ∃ full, (p, full) ∈ abbreviations ∧ m.lookUpMod full ≠ none)

theorem finds_W10 {m : Maps} {data : CheckData} {d : NodeData} (hd : d.flavor = .ifCall) {res : CheckResult} :
    FindsIn .unknownInterfaceCall m data d res ↔ ∃ cl, d = .ifCall cl ∧
      cl.name ≠ cs!"domain_auto_transition_pattern" ∧ cl.name ≠ cs!"domain_transition_pattern" ∧ ModulePrefixed m cl.name ∧
      m.lookUpIf cl.name = none ∧
      res = ⟨'W', 10, cs!"Call to " ++ cl.name ++ cs!" can not be referenced to any interface"⟩ := by
  obtain ⟨cl, rfl⟩ : ∃ cl, d = .ifCall cl := by
    obtain ⟨cl, h⟩ := data_ifCall (l := alone d) hd
    exact ⟨cl, h⟩
  have hm : macrosWithModulePrefix.any (strcmp cl.name · == 0) = true ↔
      cl.name = cs!"domain_auto_transition_pattern" ∨ cl.name = cs!"domain_transition_pattern" := by
    simp [macrosWithModulePrefix]
  have hp : startsWithModulePrefix m [] cl.name = true ↔ ModulePrefixed m cl.name := by
    rw [startsWithModulePrefix_iff]
    simp only [ModulePrefixed, List.nil_append, isModulePrefix, Bool.or_eq_true, List.any_eq_true, Bool.and_eq_true, beq_iff_eq,
      strcmp_eq_zero, Option.isSome_iff_ne_none]
    refine exists_congr fun p => exists_congr fun s => and_congr_right fun _ => or_congr Iff.rfl ⟨?_, ?_⟩
    · rintro ⟨⟨a, f⟩, h1, rfl, h2⟩
      exact ⟨f, h1, h2⟩
    · rintro ⟨f, h1, h2⟩
      exact ⟨(p, f), h1, rfl, h2⟩
  have e : FindsIn .unknownInterfaceCall m data (.ifCall cl) res ↔ checkUnknownInterfaceCall m (alone (.ifCall cl)) = .ok (some res) := by
    show (∃ s, stateless .init (checkUnknownInterfaceCall m (alone (.ifCall cl))) = .ok (s, some res)) ↔ _
    cases checkUnknownInterfaceCall m (alone (.ifCall cl)) with
    | ub => exact ⟨fun ⟨_, h⟩ => (nomatch h), fun h => (nomatch h)⟩
    | ok o =>
      constructor
      · rintro ⟨s, hs⟩; cases hs; rfl
      · intro h; cases h; exact ⟨_, rfl⟩
  rw [e]
  simp only [NodeData.ifCall.injEq, exists_eq_left']
  unfold checkUnknownInterfaceCall
  simp only [alone, Loc.data, Tree.info]
  by_cases h1 : cl.name = cs!"domain_auto_transition_pattern" ∨ cl.name = cs!"domain_transition_pattern"
  · rw [if_pos (hm.2 h1)]
    refine ⟨fun h => (nomatch h), fun ⟨a, b, _⟩ => absurd h1 (not_or.2 ⟨a, b⟩)⟩
  · rw [if_neg (fun e => h1 (hm.1 e))]
    rw [not_or] at h1
    by_cases h2 : ModulePrefixed m cl.name
    · rw [if_neg (by simp [hp.2 h2])]
      cases h3 : m.lookUpIf cl.name with
      | some _ => simp [noResult]
      | none => simp [result, h1, h2, eq_comm]
    · rw [if_pos (by simpa using fun e => h2 (hp.1 e))]
      simp [noResult, h2]

theorem lookUpTemplate_foldl {ops : List MapOp} {n : Str} : ∀ {m : Maps}, (ops.foldl MapOp.apply m).lookUpTemplate n ≠ none →
    m.lookUpTemplate n ≠ none ∨ ∃ op ∈ ops, op.mentionsTemplate n = true := by
  induction ops with
  | nil => exact fun h => .inl h
  | cons op ops ih =>
    intro m h
    rcases ih h with h | ⟨op', h1, h2⟩
    · rw [apply_template, opTemplate] at h
      split at h
      · rename_i hm; exact .inr ⟨op, List.mem_cons_self, hm⟩
      · exact .inl h
    · exact .inr ⟨op', List.mem_cons_of_mem _ h1, h2⟩

theorem policyOps_template {src : Sources} {kind : FileFlavor} {m : Maps} {ps : List Str} {ops : List MapOp}
    (h : PolicyOps src kind m ps ops) {op : MapOp} (hop : op ∈ ops) {n : Str} (hm : op.mentionsTemplate n = true) :
    ∃ p ∈ ps, ∃ mod f, Contents src kind p mod f ∧ ∃ d ∈ definitions f, d.name = n ∧ d.isTemplate = true := by
  obtain ⟨p, hp, mod, f, pre, a, post, h1, -, h2, h3⟩ := policyOps_elim h hop
  refine ⟨p, hp, mod, f, h1, ?_⟩
  obtain ⟨-, d2, d3, d4⟩ := fileOps_defs h1.2.1 h2
  cases op <;> simp [MapOp.mentionsTemplate] at hm
  · subst hm
    obtain ⟨d, a1, a2, a3⟩ := (d2 _).1 h3
    exact ⟨d, a1, a2.symm, a3⟩
  · subst hm
    obtain ⟨d, a1, a2, a3, -⟩ := (d3 _ _ _).1 h3
    exact ⟨d, a1, a2.symm, a3⟩
  · subst hm
    obtain ⟨d, a1, a2, a3, -⟩ := (d4 _ _).1 h3
    exact ⟨d, a1, a2.symm, a3⟩

/-- **C74 (template names).** A template that is known at the end is defined as a template in an
interface file that was read, or was known from the support files. -/
theorem C74_template (hc : c.Of w args paths) {n : Str} (h : c.tables.lookUpTemplate n ≠ none) :
    c.scan.maps.lookUpTemplate n ≠ none ∨
      ∃ mod f, c.Says w mod f ∧ ∃ d ∈ definitions f, d.name = n ∧ d.isTemplate = true := by
  obtain ⟨i, t, files, marks, h1, -, -, -, h2, h3⟩ := C73_history hc
  rw [h3] at h
  rcases lookUpTemplate_foldl h with h | ⟨op, h4, h5⟩
  · rcases lookUpTemplate_foldl (m := c.scan.maps) (ops := i) h with h | ⟨op, h4, h5⟩
    · exact .inl h
    · obtain ⟨p, hp, mod, f, h6, h7⟩ := policyOps_template h1 h4 h5
      exact .inr ⟨mod, f, .inl ⟨p, hp, h6⟩, h7⟩
  · obtain ⟨p, hp, mod, f, h6, h7⟩ := policyOps_template h2 h4 h5
    exact .inr ⟨mod, f, .inr ⟨p, hp, h6⟩, h7⟩

/-- A call of `n` is written in line `k` of the file. -/
def Spec.CallIn (src : Sources) (kind : FileFlavor) (path : Str) (k : Nat) (n : Str) : Prop :=
  ∃ as, StatementIn src kind path ⟨.ifCall ⟨n, as⟩, none, k⟩

/-- **C74 (W-010, no false alarm).** What W-010 reports is a call in the line of the finding to a name
that no file defines as an interface or template. -/
theorem C74_unknown_reported (h : selintMain w args paths = .ok r) (hr : Reaches w.config args paths.length)
    (h70 : r.status ≠ 70) (ho : Opt.summaryOnly ∉ args) (hc : c.Of w args paths) {b : Str} {k : Nat} {msg : Str}
    (hf : (⟨b, k, ⟨'W', 10, msg⟩⟩ : Finding) ∈ r.findings) :
    ∃ x ∈ c.files, b = basename x.path ∧ ∃ n, CallIn (w.sources c.settings.customFcMacros) x.kind x.path k n ∧
      msg = cs!"Call to " ++ n ++ cs!" can not be referenced to any interface" ∧ ModulePrefixed c.tables n ∧
      ∀ mod f, c.Says w mod f → ∀ d ∈ definitions f, d.name ≠ n := by
  have hrow : (⟨'W', 10, .unknownInterfaceCall, [.ifCall], fun _ => true⟩ : CheckRow) ∈ checkTable := by
    simp [checkTable]
  obtain ⟨-, x, hx, h1, d, h2, h3, h4⟩ := C74_reported h hr h70 ho hc hrow (by decide) rfl rfl hf
  rw [List.mem_singleton] at h2
  obtain ⟨cl, rfl, -, -, h5, h6, h7⟩ := (finds_W10 h2).1 h3
  simp only [CheckResult.mk.injEq, true_and] at h7
  refine ⟨x, hx, h1, cl.name, ?_, h7, h5, fun mod f hs d hd e => ?_⟩
  · rcases h4 with h4 | ⟨-, ls, inp, -, -, -, ⟨e, h8, -⟩ | ⟨h8, -⟩⟩
    · exact ⟨cl.args, h4⟩
    · cases h8
    · cases h8
  · exact (C73_interfaces hc cl.name).2 (.inr ⟨mod, f, hs, d, hd, e⟩) h6

/-- **C74 (W-010, nothing is missed).** A call to a name with the prefix of a known module that no
file defines is reported in its line, if W-010 is selected and no command of the file names it. -/
theorem C74_unknown_found (h : selintMain w args paths = .ok r) (hr : Reaches w.config args paths.length)
    (h70 : r.status ≠ 70) (ho : Opt.summaryOnly ∉ args) (hc : c.Of w args paths) {row : CheckRow} (hrow : row ∈ checkTable)
    (hsev : row.sev = 'W') (hnum : row.num = 10) (hsel : c.Selects row) {x : PolicyFile} (hx : x ∈ c.files) {k : Nat} {n : Str}
    (hcall : CallIn (w.sources c.settings.customFcMacros) x.kind x.path k n)
    (hd : ¬DisabledIn (w.sources c.settings.customFcMacros) x.path cs!"W-010")
    (hn : n ≠ cs!"domain_auto_transition_pattern" ∧ n ≠ cs!"domain_transition_pattern") (hp : ModulePrefixed c.tables n)
    (hs : c.scan.maps.lookUpIf n = none ∧ c.scan.maps.lookUpTemplate n = none)
    (hu : ∀ mod f, c.Says w mod f → ∀ d ∈ definitions f, d.name ≠ n) :
    (⟨basename x.path, k, ⟨'W', 10, cs!"Call to " ++ n ++ cs!" can not be referenced to any interface"⟩⟩ : Finding) ∈ r.findings := by
  obtain ⟨hfn, hon⟩ := row_W10 row hrow hsev hnum
  obtain ⟨as, hcall⟩ := hcall
  have hid : row.id = cs!"W-010" := by unfold CheckRow.id; rw [hsev, hnum]
  have hif : c.tables.lookUpIf n = none := by
    cases hl : c.tables.lookUpIf n with
    | none => rfl
    | some md =>
      rcases (C73_interfaces hc n).1 (by rw [hl]; simp) with h1 | ⟨mod, f, h1, d, h2, h3⟩
      · exact absurd hs.1 h1
      · exact absurd h3 (hu mod f h1 d h2)
  have htmp : c.tables.lookUpTemplate n = none := by
    cases hl : c.tables.lookUpTemplate n with
    | none => rfl
    | some md =>
      rcases C74_template hc (n := n) (by rw [hl]; simp) with h1 | ⟨mod, f, h1, d, h2, h3, -⟩
      · exact absurd hs.2 h1
      · exact absurd h3 (hu mod f h1 d h2)
  refine C74_found h hr h70 ho hc hrow (by rw [hfn]; decide) hsel hx hcall (by rw [hon]; simp [NodeInfo.flavor, NodeData.flavor])
    ?_ (hid ▸ hd) hsev.symm hnum.symm ?_
  · rintro d h1
    cases h1
    exact not_faulty htmp
  · rw [hfn]
    exact (finds_W10 rfl).2 ⟨_, rfl, hn.1, hn.2, hp, hif, rfl⟩

end

/-! ## C74 is about something -/

/-- The source of a te file that calls something that is defined nowhere. -/
def lostText : Str := cs!"policy_module(foo, 1.0)\nfoo_missing(bar)\n"

/-- Its derivation. -/
def lostFile : SourceFile :=
  .te [] ⟨1, cs!"foo", true, false, cs!"1.0"⟩ (.one (.bare (.simple 2 (.call cs!"foo_missing"
    (some ⟨.xperm (.item (.word cs!"bar")), []⟩)))))

theorem lost_parses : ParsesTo lostText lostFile :=
  ⟨(lexFile lostText).getD [], by decide +kernel, C68_sound rfl⟩

theorem lost_only {f : SourceFile} (h : ParsesTo lostText f) : f = lostFile := by
  have h := C68_unambiguous_text h lost_parses
  cases f with
  | te cs d ls =>
    cases ls with
    | one l =>
      cases l with
      | bare s => cases s <;> simp_all [lostFile, SourceFile.plain, Lines.plain, Line.plain, Stmt.plain]
      | _ => simp_all [lostFile, SourceFile.plain, Lines.plain, Line.plain]
    | more ls l => simp_all [lostFile, SourceFile.plain, Lines.plain]
  | _ => simp_all [lostFile, SourceFile.plain]

/-- A machine with a policy source of this file, an fc file that uses an undeclared type, and a list
of modules that has the prefix of the call. -/
def exSource : Machine where
  config := ⟨fun _ => false, fun _ => none, cs!"/etc/selint.conf"⟩
  fs := fun p => if p = cs!"mod" then .dir (.cons cs!"foo.fc" .file (.cons cs!"foo.te" .file
    (.cons cs!"modules.conf" .file .nil))) else .file
  text := fun name => if name = cs!"mod/foo.te" then some lostText else none
  fcLines := fun name => if name = cs!"mod/foo.fc" then
    some [⟨cs!"/x(/.*)?\t--\tgen_context(system_u:object_r:x_t,s0)\n", 51, []⟩] else none
  confLines := fun name => if name = cs!"mod/modules.conf" then some [(cs!"foo = module\n", [])] else none
  kernel := none
  devel := none
  broken := fun _ _ m => m

/-- C74: the exception is real. Where `foo_missing` is a template that calls itself, the file is read
without complaint, but the call in line 2 has no node. -/
theorem C74_faulty_dropped : ∃ st,
    lostFile.exec .teFile cs!"foo" { template := [(cs!"foo_missing", ⟨[], [⟨cs!"foo_missing", [(cs!"x", false)]⟩]⟩)] } =
      .ok (some st) ∧
    (⟨.ifCall ⟨cs!"foo_missing", [(cs!"bar", false)]⟩, none, 2⟩ : NodeInfo) ∈ Tree.preorderList (fileNodes .teFile lostFile) ∧
    ∀ i ∈ Tree.preorderList st.loc.unzip, i.lineno ≠ 2 :=
  ⟨_, by with_unfolding_all rfl, by decide, by decide +kernel⟩

theorem exSource_reaches : Reaches exSource.config [.recursive, .source] 1 :=
  exMachine_reaches (by decide) (by simp) (by decide)

/-- What the example looks at. -/
def exLook (c : Course) : Bool × List Str × List Str × List Str × List Str × List Str :=
  (c.settings.opts == optionsOf [.recursive, .source] && atLeast 'W' c.settings.severity && atLeast 'E' c.settings.severity &&
      isCheckEnabled cs!"W-010" c.settings.enableConf && isCheckEnabled cs!"E-005" c.settings.enableConf &&
      (c.tables.lookUpMod cs!"foo").isSome && (c.scan.maps.lookUpDecl cs!"x_t" .type).isNone &&
      (c.scan.maps.lookUpIf cs!"foo_missing").isNone && c.tables.template.isEmpty && c.scan.maps.template.isEmpty &&
      c.settings.customFcMacros.isEmpty,
    c.scan.te, c.scan.ifs, c.scan.fc, c.scan.contextTe, c.scan.contextIf)

theorem exSource_says {c : Course} {mod : Str} {f : SourceFile} (h1 : c.scan.ifs = []) (h2 : c.scan.contextIf = [])
    (h : c.Says exSource mod f) : f = lostFile := by
  rcases h with ⟨p, hp, -⟩ | ⟨p, -, -, -, s, h3, h4⟩
  · simp [h1, h2] at hp
  · simp only [Machine.sources, exSource] at h3
    split at h3
    · cases h3; exact lost_only h4
    · cases h3

set_option synthInstance.maxSize 1000 in
/-- `selint -r -s mod` on this machine meets the hypotheses of the theorems about W-010 and E-005:
no file defines `foo_missing`, none introduces `x_t`; so both are reported. -/
example : ∃ r, selintMain exSource [.recursive, .source] [cs!"mod"] = .ok r ∧
    (⟨cs!"foo.te", 2, ⟨'W', 10, cs!"Call to foo_missing can not be referenced to any interface"⟩⟩ : Finding) ∈ r.findings ∧
    (⟨cs!"foo.fc", 1, ⟨'E', 5, cs!"Nonexistent type (x_t) listed in fc_entry"⟩⟩ : Finding) ∈ r.findings := by
  obtain ⟨r, hm, h70⟩ : ∃ r, selintMain exSource [.recursive, .source] [cs!"mod"] = .ok r ∧ r.status ≠ 70 := by
    cases h : selintMain exSource [.recursive, .source] [cs!"mod"] with
    | ub =>
      have : (match selintMain exSource [.recursive, .source] [cs!"mod"] with | .ok _ => true | .ub => false) = true := by
        decide +kernel
      rw [h] at this; cases this
    | ok r =>
      have : (match selintMain exSource [.recursive, .source] [cs!"mod"] with
        | .ok r => r.status | .ub => 70) ≠ 70 := by decide +kernel
      rw [h] at this
      exact ⟨r, rfl, this⟩
  have h : (courseOf exSource [.recursive, .source] [cs!"mod"]).map exLook =
      some (true, [cs!"mod/foo.te"], [], [cs!"mod/foo.fc"], [], []) := by decide +kernel
  simp only [exLook, Option.map_eq_some_iff, Prod.mk.injEq, beq_iff_eq, Bool.and_eq_true, Option.isSome_iff_ne_none,
    Option.isNone_iff_eq_none, List.isEmpty_iff] at h
  obtain ⟨c, h1, ⟨⟨⟨⟨⟨⟨⟨⟨⟨⟨h2, h3⟩, h4⟩, h5⟩, h6⟩, h7⟩, h8⟩, h9⟩, h10⟩, h10'⟩, h16⟩, h11, h12, h13, h14, h15⟩ := h
  have hc := courseOf_of h1 h2
  have hfiles : c.files.map (fun x => (x.kind, x.path)) = [(.teFile, cs!"mod/foo.te"), (.fcFile, cs!"mod/foo.fc")] := by
    rw [(C72_files hc).1, h11, h12, h13]; rfl
  refine ⟨r, hm, ?_, ?_⟩
  · obtain ⟨x, hx, hkp⟩ : ∃ x ∈ c.files, (x.kind, x.path) = (.teFile, cs!"mod/foo.te") := by
      have : (FileFlavor.teFile, cs!"mod/foo.te") ∈ c.files.map fun x => (x.kind, x.path) := by rw [hfiles]; simp
      simpa only [List.mem_map] using this
    simp only [Prod.mk.injEq] at hkp
    have := C74_unknown_found (k := 2) (n := cs!"foo_missing") hm exSource_reaches h70 (by simp) hc
      (row := ⟨'W', 10, .unknownInterfaceCall, [.ifCall], fun _ => true⟩) (by simp [checkTable]) rfl rfl ⟨h3, h5, rfl⟩ hx
      ⟨[(cs!"bar", false)], .inl hkp.1, lostText, lostFile, by rw [hkp.2]; rfl, lost_parses, by rw [hkp.1]; decide⟩ ?_
      (by decide) ⟨cs!"foo", cs!"missing", rfl, .inl h7⟩ ⟨h9, ?_⟩ ?_
    · rw [hkp.2] at this; exact this
    · rintro ⟨s, ts, k, cmd, e, t1, t2, t3, -⟩
      rw [hkp.2] at t1
      cases t1
      have : (lexFile lostText).all (fun ts => ts.all fun t => match t.2 with | .command _ => false | _ => true) = true := by
        decide +kernel
      rw [t2] at this
      simp only [Option.all_some, List.all_eq_true] at this
      exact absurd (this _ t3) (by simp)
    · unfold Maps.lookUpTemplate; rw [h10']; rfl
    · intro mod f hf d hd
      rw [exSource_says h12 h15 hf] at hd
      cases hd
  · refine C74_fc_undeclared (path := cs!"mod/foo.fc") (ctx := ⟨true, cs!"system_u", cs!"object_r", cs!"x_t", some cs!"s0"⟩) hm exSource_reaches h70 (by simp) hc
      (row := ⟨'E', 5, .fileContextTypesExist, [.fcEntry], fun _ => true⟩) (by simp [checkTable]) rfl rfl ⟨h4, h6, rfl⟩ (by simp [h13])
      ?_ h8 ?_
    · refine ⟨⟨cs!"/x(/.*)?", some '-', some ⟨true, cs!"system_u", cs!"object_r", cs!"x_t", some cs!"s0"⟩⟩, ⟨_, _, rfl, ⟨Nat.le_refl 1, rfl⟩, ?_, .inl ⟨_, rfl, by decide +kernel⟩⟩, rfl⟩
      rintro (h | h | ⟨m, h, h'⟩ | ⟨m, h, -⟩)
      · exact absurd h (by decide)
      · exact absurd h (by decide)
      · revert m; decide
      · simp [Machine.sources, h16] at h
    · rintro ⟨mod, f, hf, hd⟩
      cases exSource_says h12 h15 hf
      rcases hd with hd | ⟨cl, ins, -, t, -, d, as, hd, -⟩
      · exact absurd hd (by simp [fileFacts, lostFile, linesFacts, lineFacts, stmtFacts, simpleFacts, declared])
      · unfold Maps.templateDecls Maps.lookUpTemplate at hd; rw [h10] at hd; cases hd

end Selint
