import Verif.Lemmas.PlaceRun
import Verif.Props.Statements
/-! # C77: where a statement stands in the text -/

namespace Selint
open Spec

/-! ## One file -/

theorem Spec.Without.mono {P Q : IfCallData → Prop} (hpq : ∀ c, P c → Q c) {ts us : List Tree} (h : Without P ts us) :
    Without Q ts us := by
  induction h with
  | nil => exact .nil
  | keep hi hc _ _ ih1 ih2 => exact .keep hi hc ih1 ih2
  | drop hj hp _ ih => exact .drop hj (hpq _ hp) ih

mutual
theorem bare_exceptions : ∀ (t : Tree), ∀ i ∈ (bare t).preorder, i.exceptions = none
  | .mk i cs, j, hj => by
    rw [bare, Tree.preorder, List.mem_cons] at hj
    rcases hj with rfl | hj
    · rfl
    · exact bareList_exceptions cs j hj
theorem bareList_exceptions : ∀ (ts : List Tree), ∀ i ∈ Tree.preorderList (bareList ts), i.exceptions = none
  | [], j, hj => by simp [bareList, Tree.preorderList] at hj
  | t :: ts, j, hj => by
    rw [bareList, Tree.preorderList, List.mem_append] at hj
    exact hj.elim (bare_exceptions t j) (bareList_exceptions ts j)
end

theorem fileNodes_exceptions {e : PlainFlavor} {f : SourceFile} : ∀ i ∈ Tree.preorderList (fileNodes e f), i.exceptions = none := by
  rw [← buildFile_nodes f e [] (by simp)]
  exact bareList_exceptions _

section
variable {f : SourceFile} {expected : PlainFlavor} {mod : Str} {m : Maps} {st : PState}

/-- The tree of an accepted file is that of its statements, but for calls of templates that cannot
be expanded. -/
theorem tree_without (hc : CommandsOk f.tokens) (he : expected = .teFile ∨ expected = .ifFile)
    (h : f.exec expected mod m = .ok (some st)) :
    Without (fun d => Faulty st.maps d.name) st.loc.unzip (fileNodes expected f) := by
  obtain ⟨-, -, hn⟩ := C12_tree hc h
  obtain ⟨ns, h1, h2⟩ := hn []
  have h3 := buildFile_trees f expected (st.rets.map (fun e => decide (e = .success)) ++ [])
  rw [h1] at h3
  refine .of_bare ?_
  rw [h2, h3]
  exact (siftTrees_without (R := Answer mod st.maps) (fun e d ha hne => by
    rcases ha with rfl | ⟨m, m', h1, h2⟩
    · exact absurd rfl hne
    · exact (expand_faulty h1 hne).mono h2) _ (neat_file expected f) fileNodes_exceptions _ (SourceFile.exec_asks he h) []).1
end

/-! ## The files of a run -/

/-- A place in the text of the te or interface file at `path`: a statement (or header, block,
comment, …) with the blocks around it and what stands before and behind it there. -/
def Spec.PlaceIn (src : Sources) (kind : FileFlavor) (path : Str) (l : Loc) : Prop :=
  (kind = .teFile ∨ kind = .ifFile) ∧
    ∃ s f, src.text path = some s ∧ ParsesTo s f ∧ l.unzip = fileNodes (rootOf kind) f

theorem Spec.PlaceIn.statement {src : Sources} {kind : FileFlavor} {path : Str} {l : Loc} (h : PlaceIn src kind path l) :
    StatementIn src kind path l.info := by
  obtain ⟨hk, s, f, h1, h2, h3⟩ := h
  exact ⟨hk, s, f, h1, h2, loc_of_info.2 ⟨l, h3, rfl⟩⟩

section
variable {w : Machine} {args : List Opt} {paths : List Str} {c : Course}

/-- A call of the text that may be missing in the tree. -/
def Spec.Course.Lost (c : Course) (d : IfCallData) : Prop := Faulty c.tables d.name

theorem rootOf_kind {k : FileFlavor} (hk : k = .teFile ∨ k = .ifFile) : rootOf k = .teFile ∨ rootOf k = .ifFile := by
  rcases hk with rfl | rfl <;> simp [rootOf]

theorem place_of_node (hc : c.Of w args paths) {x : PolicyFile} (hx : x ∈ c.files) (hk : x.kind = .teFile ∨ x.kind = .ifFile)
    {l : Loc} (hl : l.unzip = x.trees) :
    ∃ l', PlaceIn (w.sources c.settings.customFcMacros) x.kind x.path l' ∧ SamePlace c.Lost l l' := by
  obtain ⟨s, f, mod, m, st, h1, h2, h3, h4, h5⟩ := hc.readFrom x hx hk
  have hw := (tree_without h2.tokens.1 (rootOf_kind hk) h3).mono (Q := c.Lost) fun d hd => hd.mono h5
  rw [← h4, ← hl] at hw
  obtain ⟨l', h6, h7⟩ := hw.place
  exact ⟨l', ⟨hk, s, f, h1, h2, h6⟩, h7⟩

theorem node_of_place (hc : c.Of w args paths) {x : PolicyFile} (hx : x ∈ c.files) {l' : Loc}
    (hl : PlaceIn (w.sources c.settings.customFcMacros) x.kind x.path l') (ht : ∀ d, l'.data = .ifCall d → ¬Faulty c.tables d.name) :
    ∃ l : Loc, l.unzip = x.trees ∧ SamePlace c.Lost l l' ∧ ∀ e, l.info.exceptions = some e → ∀ id, id <:+: e →
      DisabledIn (w.sources c.settings.customFcMacros) x.path id := by
  obtain ⟨hk, s', f', t1, t2, hj⟩ := hl
  obtain ⟨s, f, mod, m, st, h1, h2, h3, h4, h5⟩ := hc.readFrom x hx hk
  rw [t1] at h1; cases h1
  have h3 : f'.exec (rootOf x.kind) mod m = .ok (some st) := by
    rw [← f'.plain_exec, C68_unambiguous_text t2 h2, f.plain_exec]; exact h3
  have hw := (tree_without t2.tokens.1 (rootOf_kind hk) h3).mono (Q := c.Lost) fun d hd => hd.mono h5
  rw [← h4, ← hj] at hw
  obtain ⟨l, h6, h7⟩ := hw.place' (fun d hd => ht d (by
    unfold callOf at hd
    split at hd
    · rename_i e; cases hd; exact e
    · cases hd))
  refine ⟨l, h6, h7, fun ex he id hid => ?_⟩
  obtain ⟨cmd, hc1, hc2⟩ := C74_exceptions t2.tokens.1 h3 (loc_of_info.2 ⟨l, h6.trans h4, rfl⟩) he
  obtain ⟨ts, hl, ha⟩ := t2
  rw [← f'.at_toks ha] at hc1
  obtain ⟨⟨n, t⟩, hm, rfl⟩ := List.mem_map.1 hc1
  exact ⟨s', ts, n, cmd, ex, t1, hl, hm, hc2, hid⟩

end

theorem place_rows : ∀ row ∈ checkTable, row.fn ∈ placeChecks →
    NodeFlavor.cleanup ∉ row.on ∧ NodeFlavor.fcFile ∉ row.on ∧ NodeFlavor.fcEntry ∉ row.on ∧ NodeFlavor.error ∉ row.on ∧
      row.fn ≠ .teOrder ∧ row.fn ≠ .permMacroAvailable := by decide

theorem fc_flavors {src : Sources} {path : Str} {n : Nat} {d : NodeData} (h : FcLineIn src path n d) :
    d.flavor = .fcEntry ∨ d.flavor = .error := by
  obtain ⟨ls, inp, -, -, -, ⟨e, rfl, -⟩ | ⟨rfl, -⟩⟩ := h
  · exact .inl rfl
  · exact .inr rfl

section
variable {w : Machine} {args : List Opt} {paths : List Str} {c : Course} {r : MainResult}

/-- The findings of a check without memory on nodes of te and interface files. -/
theorem findings_places (h : selintMain w args paths = .ok r) (hr : Reaches w.config args paths.length) (h70 : r.status ≠ 70)
    (ho : Opt.summaryOnly ∉ args) (hc : c.Of w args paths) {row : CheckRow} (hrow : row ∈ checkTable)
    (hon : NodeFlavor.cleanup ∉ row.on ∧ NodeFlavor.fcFile ∉ row.on ∧ NodeFlavor.fcEntry ∉ row.on ∧ NodeFlavor.error ∉ row.on ∧
      row.fn ≠ .teOrder ∧ row.fn ≠ .permMacroAvailable) {f : Finding}
    (hs : f.result.severity = row.sev) (hn : f.result.checkId = row.num) :
    f ∈ r.findings ↔ c.Selects row ∧ ∃ x ∈ c.files, f.filename = basename x.path ∧ (x.kind = .teFile ∨ x.kind = .ifFile) ∧
      ∃ l : Loc, l.unzip = x.trees ∧ l.flavor ∈ row.on ∧ (∀ e, l.info.exceptions = some e → ¬row.id <:+: e) ∧
        f.lineno = l.info.lineno ∧ Finds row.fn c.tables (c.dataFor x.kind x.path) l f.result := by
  obtain ⟨c', hc', h⟩ := C72_findings h hr h70 ho
  cases hc.unique hc'
  obtain ⟨r1, r2, r3, r4, r5, r6⟩ := hon
  rw [h row hrow (fun h => h.elim r5 r6) f hs hn]
  constructor
  · rintro ⟨h1, h2, h3, x, hx, h4, l, h5, h6, h7, h8, h9⟩
    rcases h5 with h5 | rfl
    · refine ⟨⟨h1, h2, h3⟩, x, hx, h4, ?_, l, h5, h6, fun e he hi => h7 ⟨e, he, hi⟩, h8, h9⟩
      rcases C74_text hc hx (loc_of_info.2 ⟨l, h5, rfl⟩) with h | ⟨-, h | ⟨-, h⟩⟩
      · exact h.1
      · have h6 : l.info.flavor ∈ row.on := h6
        rw [h] at h6
        exact absurd h6 r2
      · have h6 : l.info.data.flavor ∈ row.on := h6
        rcases fc_flavors h with h | h
        · exact absurd (h ▸ h6) r3
        · exact absurd (h ▸ h6) r4
    · exact absurd h6 r1
  · rintro ⟨⟨h1, h2, h3⟩, x, hx, h4, -, l, h5, h6, h7, h8, h9⟩
    exact ⟨h1, h2, h3, x, hx, h4, l, .inl h5, h6, fun ⟨e, he, hi⟩ => h7 e he hi, h8, h9⟩

theorem finds_same {P : IfCallData → Prop} {l l' : Loc} (hl : SamePlace P l l') {fn : CheckFn} (hfn : fn ∈ placeChecks) {m : Maps} {data : CheckData}
    {res : CheckResult} : Finds fn m data l res ↔ Finds fn m data l' res := by
  unfold Finds
  rw [hl.run hfn]

/-- **C77 (no false finding).** For every finding that is printed by a check that looks at the
surroundings of a statement, the text of a checked te or interface file has a place, in the line of
the finding, at which the check finds just this. -/
theorem C77_reported (h : selintMain w args paths = .ok r) (hr : Reaches w.config args paths.length) (h70 : r.status ≠ 70)
    (ho : Opt.summaryOnly ∉ args) (hc : c.Of w args paths) {row : CheckRow} (hrow : row ∈ checkTable)
    (hp : row.fn ∈ placeChecks) {f : Finding} (hs : f.result.severity = row.sev) (hn : f.result.checkId = row.num)
    (hf : f ∈ r.findings) :
    c.Selects row ∧ ∃ x ∈ c.files, f.filename = basename x.path ∧
      ∃ l, PlaceIn (w.sources c.settings.customFcMacros) x.kind x.path l ∧ l.flavor ∈ row.on ∧ f.lineno = l.info.lineno ∧
        Finds row.fn c.tables (c.dataFor x.kind x.path) l f.result := by
  obtain ⟨h1, x, hx, h2, hk, l, h3, h4, -, h5, h6⟩ :=
    (findings_places h hr h70 ho hc hrow (place_rows row hrow hp) hs hn).1 hf
  obtain ⟨l', h7, h8⟩ := place_of_node hc hx hk h3
  refine ⟨h1, x, hx, h2, l', h7, h8.flavor ▸ h4, ?_, (finds_same h8 hp).1 h6⟩
  rw [h5, ← h8.info]; rfl

/-- **C77 (no place is missed).** If a selected check of this kind finds something at a place in the
text of a checked te or interface file, it is printed with the line of the place; unless the
statement there is itself a call of a template that cannot be expanded, or a command in the file
excepts something from the check. -/
theorem C77_found (h : selintMain w args paths = .ok r) (hr : Reaches w.config args paths.length) (h70 : r.status ≠ 70)
    (ho : Opt.summaryOnly ∉ args) (hc : c.Of w args paths) {row : CheckRow} (hrow : row ∈ checkTable)
    (hp : row.fn ∈ placeChecks) (hsel : c.Selects row) {x : PolicyFile} (hx : x ∈ c.files) {l : Loc}
    (hl : PlaceIn (w.sources c.settings.customFcMacros) x.kind x.path l) (hon : l.flavor ∈ row.on)
    (ht : ∀ d, l.data = .ifCall d → ¬Faulty c.tables d.name)
    (hd : ¬DisabledIn (w.sources c.settings.customFcMacros) x.path row.id) {res : CheckResult}
    (hs : res.severity = row.sev) (hn : res.checkId = row.num)
    (hf : Finds row.fn c.tables (c.dataFor x.kind x.path) l res) :
    ⟨basename x.path, l.info.lineno, res⟩ ∈ r.findings := by
  obtain ⟨l₀, h1, h2, h3⟩ := node_of_place hc hx hl ht
  refine (findings_places h hr h70 ho hc hrow (place_rows row hrow hp) hs hn).2
    ⟨hsel, x, hx, rfl, hl.1, l₀, h1, h2.flavor ▸ hon, fun e he hi => hd (h3 e he _ hi), ?_, (finds_same h2 hp).2 hf⟩
  show l.info.lineno = _
  rw [← h2.info]; rfl

end
end Selint
