import Verif.Lemmas.MapsInMemory
/-!
# C87: the symbol tables in memory

Whatever functions of maps.c are called in whatever order, nothing that is not allocated is
read, written or freed; the tables in memory hold what the tables of `Maps.lean` hold; what is
looked up is the same; `free_all_maps` gives back everything the tables consist of, each object
once, and nothing else. What is left then are the lists of permissions handed over for a macro
that was in the table already: nothing points to them.
-/

namespace Selint

open Spec

theorem owns_range {m : Mem} (hb : Bounded m) : Owns m (List.range m.top) :=
  ⟨List.nodup_range, fun q hq => List.mem_range.1 hq,
    fun q hq => hb q (by simpa using hq)⟩

theorem grows_of_owns {m₀ m : Mem} {R : List Addr} (hb : Bounded m₀)
    (ho : Owns m (R ++ List.range m₀.top)) (he : EqOn m₀ m (List.range m₀.top)) (hl : Live m R) :
    Grows m₀ m R := by
  have hn := List.nodup_append.1 ho.nodup
  refine ⟨hn.1, fun q hq => ⟨hb q ?_, hl q hq⟩, fun q hq => ?_⟩
  · exact Nat.le_of_not_lt fun hlt => hn.2.2 q hq q (List.mem_range.2 hlt) rfl
  · by_cases hlt : q < m₀.top
    · exact he q (List.mem_range.2 hlt)
    · rw [hb q (Nat.le_of_not_lt hlt)]
      exact ho.only q (by simp [hq, hlt])

/-- Any calls, beginning with empty tables. -/
theorem C87_operations {m₀ : Mem} (hb : Bounded m₀) (callOf : Addr → IfCallData)
    (ops : List TableOp) :
    ∃ m t T lost L, runTableOps ops m₀ .empty = .ok (m, t) ∧
      TablesAt m callOf t (ops.foldl (opEffect callOf) {}) T ∧ ListsAt m lost L ∧
      lost.map (·.2) = redefined ops [] ∧ Grows m₀ m (T ++ L) ∧ Bounded m := by
  have h₀ : HoldsTables callOf ([] ++ List.range m₀.top) m₀ .empty {} := by
    refine ⟨[], ⟨fun _ => [], fun _ => [], [], [], ?_, ?_, .nil, .nil, ?_⟩, owns_range hb⟩
    · intro i; cases i <;> exact .nil
    · intro i; cases i <;> exact .nil
    · simp [strTables, flagTables]
  obtain ⟨m, t, lost, L, e, ⟨T, hT, ho⟩, hl, hm, he⟩ := run_ops ops h₀ (lost := []) .nil
    (seen := []) (by simp)
  exact ⟨m, t, T, lost, L, e, hT, hl, by simpa using hm,
    grows_of_owns hb (ho.perm (by pieces)) he (hT.live.append hl.live), ho.bounded⟩

/-- What is looked up in the tables of strings and of marks, and how many declarations there
are. -/
theorem C87_look_up {m : Mem} {callOf : Addr → IfCallData} {t : Tables} {maps : Maps}
    {R : List Addr} (h : TablesAt m callOf t maps R) (name : Str) :
    (∀ fl, m.lookUpStr t (declStrTable fl) name = .ok (maps.lookUpDecl name fl)) ∧
    m.lookUpStr t .mods name = .ok (maps.lookUpMod name) ∧
    m.lookUpStr t .modLayers name = .ok (maps.lookUpModLayer name) ∧
    m.lookUpStr t .ifs name = .ok (maps.lookUpIf name) ∧
    m.isFlagged t .transform name = .ok (maps.isTransform name) ∧
    m.isFlagged t .filetrans name = .ok (maps.isFiletrans name) ∧
    m.isFlagged t .roleIf name = .ok (maps.isRole name) ∧
    ∀ fl, Mem.declMapCount t fl = maps.declCount fl := by
  obtain ⟨P, Q, A, B, h₁, h₂, h₃, h₄, rfl⟩ := h
  have hs : ∀ i, m.lookUpStr t i name = .ok ((strContents maps i).find name) := by
    intro i
    rcases (h₁ i).find key_str name with ⟨e₁, e₂⟩ |
      ⟨p, v, _, _, _, _, _, _, _, e₁, e₂, ⟨a, b, f₁, f₂, f₃, _⟩, _⟩
    · rw [Mem.lookUpStr, e₁, e₂, Res.bind_ok]
    · rw [Mem.lookUpStr, e₁, e₂, Res.bind_ok]
      simp only
      rw [get_eq f₁ (f := Obj.hash?) rfl, Res.bind_ok]
      simp only [Mem.getAt]
      rw [get_eq f₃ (f := Obj.str?) rfl, Res.bind_ok]
  have hf : ∀ i, m.isFlagged t i name = .ok (decide (name ∈ flagContents maps i)) := by
    intro i
    have hm : (Assoc.find ((flagContents maps i).map fun k => (k, ())) name = none) ↔
        name ∉ flagContents maps i := by
      rw [Assoc.find_eq_none_iff]; simp
    rcases (h₂ i).find key_flag name with ⟨e₁, e₂⟩ |
      ⟨p, v, _, _, _, _, _, _, _, e₁, e₂, ⟨a, f₁, f₂, _⟩, _⟩
    · rw [Mem.isFlagged, e₁, Res.bind_ok]
      simp [hm.1 e₂]
    · have hin : name ∈ flagContents maps i :=
        Classical.byContradiction fun hc => by simp [hm.2 hc] at e₂
      rw [Mem.isFlagged, e₁, Res.bind_ok]
      simp only
      rw [get_eq f₁ (f := Obj.flag?) rfl, Res.bind_ok]
      simp [hin]
  refine ⟨fun fl => ?_, hs .mods, hs .modLayers, hs .ifs, hf .transform, hf .filetrans,
    hf .roleIf, fun fl => ?_⟩
  · rw [hs, Maps.lookUpDecl, decl_strContents]
  · rw [Mem.declMapCount, Maps.declCount, decl_strContents]; exact (h₁ _).length

/-- What is looked up in the table of permission macros: the list stays the table's. -/
theorem C87_look_up_macro {m : Mem} {callOf : Addr → IfCallData} {t : Tables} {maps : Maps}
    {R : List Addr} (h : TablesAt m callOf t maps R) (name : Str) :
    ∃ p ps, m.lookUpPermmacro t name = .ok p ∧
      NamesAt m p ((maps.lookUpPermmacro name).getD []) ps ∧ (∀ q ∈ ps, q ∈ R) ∧
      p.isSome = (maps.lookUpPermmacro name).isSome := by
  obtain ⟨P, Q, A, B, h₁, h₂, h₃, h₄, rfl⟩ := h
  rcases h₃.find key_macro name with ⟨e₁, e₂⟩ |
    ⟨p, v, _, _, _, _, _, _, _, e₁, e₂, ⟨a, l, ps, f₁, f₂, f₃, rfl⟩, _, _, _, _, e₃, _⟩
  · refine ⟨none, [], ?_, ?_, by simp, ?_⟩
    · rw [Mem.lookUpPermmacro, e₁, Res.bind_ok]
    · simp only [Maps.lookUpPermmacro, e₂]; exact .nil
    · simp [Maps.lookUpPermmacro, e₂]
  · refine ⟨l, ps, ?_, ?_, by grind, ?_⟩
    · rw [Mem.lookUpPermmacro, e₁, Res.bind_ok]
      simp only
      rw [get_eq f₁ (f := Obj.slHash?) rfl, Res.bind_ok]
    · simp only [Maps.lookUpPermmacro, e₂]
      cases v <;> exact f₃
    · simp only [Maps.lookUpPermmacro, e₂]
      cases v <;> cases f₃ <;> rfl

/-- What is looked up in the table of templates: the lists stay the table's, and the calls that
of the nodes. -/
theorem C87_look_up_template {m : Mem} {callOf : Addr → IfCallData} {t : Tables} {maps : Maps}
    {R : List Addr} (h : TablesAt m callOf t maps R) (name : Str) :
    ∃ p d c cs ps qs, m.lookUpTemplate t name = .ok p ∧
      p.isSome = (maps.lookUpTemplate name).isSome ∧
      m.lookUpTemplateDecls t name = .ok d ∧
      DeclsAt m d ((maps.templateDecls name).map fun x => ⟨x.1, x.2, []⟩) ps ∧
      m.lookUpTemplateCalls t name = .ok c ∧ CallsAt m c cs qs ∧
      maps.templateCalls name = cs.map callOf ∧ ∀ q ∈ ps ++ qs, q ∈ R := by
  obtain ⟨P, Q, A, B, h₁, h₂, h₃, h₄, rfl⟩ := h
  rcases h₄.find (key_template callOf) name with ⟨e₁, e₂⟩ |
    ⟨p, v, _, _, _, _, _, _, _, e₁, e₂, ⟨a, d, c, cs, ps, qs, f₁, f₂, f₃, f₄, f₅, rfl⟩, _, _, _, _,
      e₃, _⟩
  · refine ⟨none, none, none, [], [], [], e₁, ?_, ?_, ?_, ?_, .nil, ?_, by simp⟩
    · simp [Maps.lookUpTemplate, e₂]
    · rw [Mem.lookUpTemplateDecls, Mem.lookUpTemplate, e₁, Res.bind_ok]
    · simp only [Maps.templateDecls, Maps.lookUpTemplate, e₂]; exact .nil
    · rw [Mem.lookUpTemplateCalls, Mem.lookUpTemplate, e₁, Res.bind_ok]
    · simp [Maps.templateCalls, Maps.lookUpTemplate, e₂]
  · refine ⟨some p, d, c, cs, ps, qs, e₁, ?_, ?_, ?_, ?_, f₄, ?_, by grind⟩
    · simp [Maps.lookUpTemplate, e₂]
    · rw [Mem.lookUpTemplateDecls, Mem.lookUpTemplate, e₁, Res.bind_ok]
      simp only
      rw [get_eq f₁ (f := Obj.tmpl?) rfl, Res.bind_ok]
    · simpa only [Maps.templateDecls, Maps.lookUpTemplate, e₂] using f₃
    · rw [Mem.lookUpTemplateCalls, Mem.lookUpTemplate, e₁, Res.bind_ok]
      simp only
      rw [get_eq f₁ (f := Obj.tmpl?) rfl, Res.bind_ok]
    · simpa only [Maps.templateCalls, Maps.lookUpTemplate, e₂] using f₅

/-- The tables do not depend on anything else in memory, in particular not on the calls of
templates: when the trees are gone, they are still there. -/
theorem C87_outlive {m : Mem} {callOf : Addr → IfCallData} {t : Tables} {maps : Maps}
    {R ps : List Addr} (h : TablesAt m callOf t maps R) (hd : ∀ q ∈ R, q ∉ ps) :
    TablesAt (dropped m ps) callOf t maps R := h.congr (eqOn_dropped m hd)

/-- `free_all_maps`. -/
theorem C87_free {m : Mem} {callOf : Addr → IfCallData} {t : Tables} {maps : Maps}
    {R : List Addr} (hb : Bounded m) (h : TablesAt m callOf t maps R) (hn : R.Nodup) :
    m.freeAllMaps t = .ok (dropped m R, .empty) := by
  refine freeAllMaps_eq h hn ?_
  have := List.Nodup.length_le_of_subset hn (l₂ := List.range m.top)
    (fun q hq => List.mem_range.2 (hb.lt h.live q hq))
  simpa using this

/-- What is left of any calls after `free_all_maps`. -/
theorem C87_left {m₀ : Mem} (hb : Bounded m₀) (ops : List TableOp) :
    ∃ m t m' lost L, runTableOps ops m₀ .empty = .ok (m, t) ∧
      m.freeAllMaps t = .ok (m', .empty) ∧ ListsAt m' lost L ∧
      lost.map (·.2) = redefined ops [] ∧ Grows m₀ m' L := by
  obtain ⟨m, t, T, lost, L, e, hT, hl, hm, hg, hb'⟩ := C87_operations hb (fun _ => ⟨[], []⟩) ops
  have hn := List.nodup_append.1 hg.nodup
  have hd : ∀ q ∈ L, q ∉ T := fun q hq hq' => hn.2.2 q hq' q hq rfl
  refine ⟨m, t, _, lost, L, e, C87_free hb' hT hn.1, hl.congr (eqOn_dropped m hd), hm, hn.2.1,
    fun q hq => ⟨(hg.new q (by simp [hq])).1, ?_⟩, fun q hq => ?_⟩
  · rw [dropped_obj, if_neg (hd q hq)]
    exact (hg.new q (by simp [hq])).2
  · rw [dropped_obj]
    split
    · rename_i hqT; exact ((hg.new q (by simp [hqT])).1).symm
    · rename_i hqT; exact hg.same q (by simp [hq, hqT])

/-- When no macro is defined twice, `free_all_maps` gives back all there is. -/
theorem C87_nothing_left {m₀ : Mem} (hb : Bounded m₀) (ops : List TableOp)
    (hr : redefined ops [] = []) :
    ∃ m t m', runTableOps ops m₀ .empty = .ok (m, t) ∧ m.freeAllMaps t = .ok (m', .empty) ∧
      ∀ q, m'.obj q = m₀.obj q := by
  obtain ⟨m, t, m', lost, L, e, hf, hl, hm, hg⟩ := C87_left hb ops
  rw [hr, List.map_eq_nil_iff] at hm
  subst hm
  cases hl
  exact ⟨m, t, m', e, hf, fun q => hg.same q (by simp)⟩

/-! ## Some calls -/

/-- A type, the same type again, an interface with a mark, a template with a declaration and two
calls, a macro. -/
def someOps : List TableOp :=
  [.decl cs!"foo_t" cs!"foo" .type, .decl cs!"foo_t" cs!"bar" .type, .iface cs!"foo_do" cs!"foo",
    .transform cs!"foo_do", .transform cs!"foo_do", .template cs!"foo_template",
    .templateDecl cs!"foo_template" .type cs!"$1_t", .templateCall cs!"foo_template" 100,
    .templateCall cs!"foo_template" 101, .permmacro cs!"rw_perms" [cs!"read", cs!"write"]]

example : redefined someOps [] = [] := by decide

example : ∃ m t m', runTableOps someOps .empty .empty = .ok (m, t) ∧
    m.freeAllMaps t = .ok (m', .empty) ∧ ∀ q, m'.obj q = Mem.empty.obj q :=
  C87_nothing_left (fun _ _ => rfl) someOps (by decide)

/-- Tables that meet the hypotheses above. -/
example : ∃ m t R, TablesAt m (fun q => ⟨cs!"call", [(cs!"x", q == 100)]⟩) t
      (someOps.foldl (opEffect fun q => ⟨cs!"call", [(cs!"x", q == 100)]⟩) {}) R ∧ R.Nodup ∧
    Bounded m := by
  obtain ⟨m, t, T, lost, L, _, hT, _, _, hg, hb⟩ := C87_operations (m₀ := .empty)
    (fun _ _ => rfl) (fun q => ⟨cs!"call", [(cs!"x", q == 100)]⟩) someOps
  exact ⟨m, t, T, hT, (List.nodup_append.1 hg.nodup).1, hb⟩

/-- What they hold. -/
example : (someOps.foldl (opEffect fun q => ⟨cs!"call", [(cs!"x", q == 100)]⟩) {}).template =
    [(cs!"foo_template", ⟨[(.type, cs!"$1_t")],
      [⟨cs!"call", [(cs!"x", true)]⟩, ⟨cs!"call", [(cs!"x", false)]⟩]⟩)] := by decide

/-- There are 21 objects then. -/
example : ∃ m t, runTableOps someOps .empty .empty = .ok (m, t) ∧
    ((List.range m.top).filter fun q => (m.obj q).isSome).length = 21 ∧
    m.lookUpStr t .type cs!"foo_t" = .ok (some cs!"foo") ∧
    m.isFlagged t .transform cs!"foo_do" = .ok true ∧
    m.isFlagged t .filetrans cs!"foo_do" = .ok false :=
  ⟨_, _, by with_unfolding_all rfl, by decide +kernel, by with_unfolding_all rfl,
    by with_unfolding_all rfl, by with_unfolding_all rfl⟩

/-- A macro that is defined twice. -/
example : redefined [.permmacro cs!"rw_perms" [cs!"read"], .permmacro cs!"rw_perms" [cs!"write"]]
    [] = [[cs!"write"]] := by decide

/-- Its second list is there for good. -/
example : ∃ m t m', runTableOps
      [.permmacro cs!"rw_perms" [cs!"read"], .permmacro cs!"rw_perms" [cs!"write"]] .empty .empty =
        .ok (m, t) ∧ m.freeAllMaps t = .ok (m', .empty) ∧
      ∃ L p, NamesAt m' p [cs!"write"] L ∧ Grows .empty m' L ∧ L ≠ [] := by
  obtain ⟨m, t, m', lost, L, e, hf, hl, hm, hg⟩ := C87_left (m₀ := .empty) (fun _ _ => rfl)
    [.permmacro cs!"rw_perms" [cs!"read"], .permmacro cs!"rw_perms" [cs!"write"]]
  have hm : lost.map (·.2) = [[cs!"write"]] := hm
  cases hl with
  | nil => simp at hm
  | @cons p l ls ps qs h h' =>
    simp only [List.map_cons, List.cons.injEq, List.map_eq_nil_iff] at hm
    obtain ⟨rfl, rfl⟩ := hm
    cases h'
    refine ⟨m, t, m', e, hf, _, p, ?_, hg, ?_⟩
    · simpa using h
    · cases h; simp

end Selint
