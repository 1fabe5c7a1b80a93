import Verif.Spec.TemplateInMemory
import Verif.Model.TemplateInMemory
import Verif.Lemmas.ListsInMemory
import Verif.Lemmas.MapsInMemory
import Verif.Props.M4
import Verif.Props.Template
import Verif.Props.MapsInMemory
import Verif.Lemmas.Present
/-! # Template expansion on allocated memory -/

namespace Selint

open Spec

/-! ## Lists of arguments -/

namespace Spec.ArgsAt

variable {m m' : Mem} {p : Option Addr} {l : List (Option Str)} {ps : List Addr}

theorem congr (h : ArgsAt m p l ps) (he : EqOn m m' ps) : ArgsAt m' p l ps := by
  induction h with
  | nil => exact .nil
  | @cons p a n b s l as ps h₁ h₂ _ h₄ ih =>
    refine .cons (by rw [he p (by simp)]; exact h₁) (h₂.congr (he.mono (by grind)))
      (ih (he.mono (by grind))) h₄

theorem nodup (h : ArgsAt m p l ps) : ps.Nodup := by cases h <;> first | assumption | simp

theorem length (h : ArgsAt m p l ps) : l.length ≤ ps.length := by
  induction h with
  | nil => simp
  | cons _ _ _ _ ih => simp; omega

theorem of_sl {l : List (Str × Bool)} (h : SlAt m p l ps) : ArgsAt m p (l.map fun x => some x.1) ps := by
  induction h with
  | nil => exact .nil
  | @cons p a n s b l ps h₁ h₂ _ h₄ h₅ ih =>
    have hpa : p ≠ a := by rintro rfl; simp [h₁] at h₂
    exact .cons (as := [a]) h₁ (.some h₂) ih (by have := ih.nodup; grind)

end Spec.ArgsAt

theorem read_args {m p l ps} (h : ArgsAt m p l ps) :
    ∀ {as}, allStrings l = .ok as → ∀ {fuel}, l.length ≤ fuel → Mem.readArgs fuel m p = .ok as := by
  induction h with
  | nil => intro as h fuel _; cases fuel <;> simpa [allStrings, Mem.readArgs] using h
  | @cons p a n b s l as ps h₁ h₂ _ h₄ ih =>
    intro as' h fuel hf
    obtain _ | fuel := fuel
    · simp at hf
    simp only [List.length_cons, Nat.add_le_add_iff_right] at hf
    cases h₂ with
    | none => simp [allStrings] at h
    | some h₂ =>
      simp only [allStrings] at h
      split at h
      · simp at h
      · rename_i r hr
        simp only [Res.ok.injEq] at h
        subst h
        rw [Mem.readArgs, get_eq h₁ (f := Obj.sl?) rfl, Res.bind_ok, Mem.getAt,
          get_eq h₂ (f := Obj.str?) rfl, Res.bind_ok, ih hr hf, Res.bind_ok]

theorem free_args {m p l ps} (h : ArgsAt m p l ps) :
    ∀ {m'}, EqOn m m' ps → ∀ {fuel}, l.length ≤ fuel →
      Mem.freeStringList fuel m' p = .ok (dropped m' ps) := by
  induction h with
  | nil => intro m' _ fuel _; cases fuel <;> simp [Mem.freeStringList]
  | @cons p a n b s l as ps h₁ h₂ h₃ h₄ ih =>
    intro m' he fuel hf
    obtain _ | fuel := fuel
    · simp at hf
    simp only [List.length_cons, Nat.add_le_add_iff_right] at hf
    rw [← he p (by simp)] at h₁
    have h₂' := h₂.congr (he.mono (by grind))
    have e₁ := free_optStr h₂'
    have e₂ : (dropped m' as).free (some p) = .ok (dropped (dropped m' as) [p]) :=
      free_ok (by simp [dropped_obj, h₁]; grind)
    simp only [Mem.freeStringList, get_eq h₁ (f := Obj.sl?) rfl, Res.bind_ok, e₁, e₂]
    rw [dropped_dropped, ih _ hf, dropped_dropped]
    · exact congrArg Res.ok (dropped_congr _ (by grind))
    · intro q hq
      rw [eqOn_dropped m' (qs := ps) (by grind) q hq]
      exact he q (by simp [hq])

theorem is_enclosing {m p l ps} (h : SlAt m p l ps) (s : Str) :
    ∀ {fuel}, l.length ≤ fuel → Mem.isEnclosing fuel m s p = .ok (strInSl s (l.map (·.1))) := by
  induction h with
  | nil => intro fuel _; cases fuel <;> simp [Mem.isEnclosing, strInSl]
  | @cons p a n s' b l ps h₁ h₂ h₃ h₄ h₅ ih =>
    intro fuel hf
    obtain _ | fuel := fuel
    · simp at hf
    simp only [List.length_cons, Nat.add_le_add_iff_right] at hf
    rw [Mem.isEnclosing, get_eq h₁ (f := Obj.sl?) rfl, Res.bind_ok, Mem.getAt,
      get_eq h₂ (f := Obj.str?) rfl, Res.bind_ok, List.map_cons, strInSl]
    split
    · rfl
    · exact ih hf

/-! ## Substitution -/

theorem replace_m4 {m : Mem} {F : List Addr} (ho : Owns m F) {pa l As} (ha : ArgsAt m pa l As)
    (hA : ∀ q ∈ As, q ∈ F) {as : List Str} (hs : allStrings l = .ok as) {s : Str} {r : Option Str}
    (hr : replaceM4 s as = .ok r) :
    ∃ a m' qs, m.replaceM4 s pa = .ok (a, m') ∧ OptStrAt m' a r qs ∧ Owns m' (qs ++ F) ∧
      EqOn m m' F := by
  have hl : l.length ≤ m.top := by
    have := List.Nodup.length_le_of_subset ha.nodup hA
    have := ha.length
    have := ho.length_le
    omega
  have hm := ho.malloc
  cases r with
  | some r =>
    refine ⟨_, _, [m.top], ?_, .some (malloc_self m (.bytes r)), hm _, eqOn_malloc ho _⟩
    rw [Mem.replaceM4, read_args ha hs hl, Res.bind_ok, hr, Res.bind_ok]
    rfl
  | none =>
    refine ⟨none, dropped (m.malloc (.bytes [])).2 [m.top], [], ?_, .none, (hm _).dropped,
      (eqOn_malloc ho _).trans (hm _).eqOn_dropped⟩
    rw [Mem.replaceM4, read_args ha hs hl, Res.bind_ok, hr, Res.bind_ok]
    simp only [malloc_fst]
    rw [free_ok (by rw [malloc_self]; simp), Res.bind_ok]

theorem replace_rest {pa : Option Addr} {l : List (Option Str)} {As : List Addr} {as : List Str}
    (hs : allStrings l = .ok as) :
    ∀ (fl : List (Str × Bool)) {m : Mem} {F : List Addr} {cur : Addr} {x : Option Addr} {r : Option Str}
      {xs : List Addr} {frm : Option Addr} {ps : List Addr} {rs : List (Option Str)} {fuel : Nat},
      m.obj cur = some (.sl ⟨x, none, false⟩) → OptStrAt m x r xs → Owns m (cur :: xs ++ F) →
      ArgsAt m pa l As → (∀ q ∈ As, q ∈ F) → SlAt m frm fl ps → (∀ q ∈ ps, q ∈ F) →
      replaceM4List.go as (fl.map (·.1)) = .ok rs → fl.length ≤ fuel →
      ∃ m' qs, Mem.replaceM4Rest fuel m cur pa frm = .ok m' ∧
        ArgsAt m' (some cur) (r :: rs) (cur :: xs ++ qs) ∧ Owns m' (cur :: xs ++ qs ++ F) ∧
        EqOn m m' F := by
  intro fl
  induction fl with
  | nil =>
    intro m F cur x r xs frm ps rs fuel hc hx ho ha hA hf hF hg hu
    cases hf
    simp only [List.map_nil, replaceM4List.go, Res.ok.injEq] at hg
    subst hg
    refine ⟨m, [], ?_, .cons hc hx .nil ?_, by simpa using ho, EqOn.refl _ _⟩
    · cases fuel <;> rfl
    · have := ho.nodup; grind
  | cons f fl ih =>
    intro m F cur x r xs frm ps rs fuel hc hx ho ha hA hf hF hg hu
    obtain _ | fuel := fuel
    · simp at hu
    simp only [List.length_cons, Nat.add_le_add_iff_right] at hu
    cases hf with
    | @cons p a n s b _ ps h₁ h₂ h₃ h₄ h₅ =>
    simp only [List.map_cons, replaceM4List.go] at hg
    split at hg
    · simp at hg
    rename_i r' hr
    split at hg
    · simp at hg
    rename_i rs' hrs
    simp only [Res.ok.injEq] at hg
    subst hg
    have hn := ho.nodup
    have ho₁ := ho.malloc (.sl ⟨none, none, false⟩)
    have he₁ := eqOn_malloc ho (.sl ⟨none, none, false⟩)
    have hs₁ := malloc_self m (.sl ⟨none, none, false⟩)
    have ht : m.top ∉ cur :: xs ++ F := fun hq => by have := ho.below _ hq; omega
    rw [Mem.replaceM4Rest]
    simp only [malloc_fst]
    generalize hm₁ : (m.malloc (.sl ⟨none, none, false⟩)).2 = m₁ at *
    generalize m.top = k at *
    have hc₁ := hc
    rw [← he₁ cur (by simp)] at hc₁
    rw [get_eq hc₁ (f := Obj.sl?) rfl, Res.bind_ok, write_wrote (by rw [hc₁]; simp), Res.bind_ok]
    have ho₂ := ho₁.wrote (p := cur) (by simp) (.sl ⟨x, some k, false⟩)
    have he₂ : EqOn m₁ (wrote m₁ cur (.sl ⟨x, some k, false⟩)) ([k] ++ xs ++ F) :=
      eqOn_wrote (by grind) _
    have hc₂ := wrote_self m₁ cur (.sl ⟨x, some k, false⟩)
    simp only
    generalize wrote m₁ cur (.sl ⟨x, some k, false⟩) = m₂ at *
    have he : EqOn m m₂ (xs ++ F) := (he₁.mono (by grind)).trans (he₂.mono (by grind))
    rw [← he p (by grind)] at h₁
    rw [← he a (by grind)] at h₂
    rw [get_eq h₁ (f := Obj.sl?) rfl, Res.bind_ok, Mem.getAt, get_eq h₂ (f := Obj.str?) rfl,
      Res.bind_ok]
    obtain ⟨y, m₃, ys, e₃, hy, ho₃, he₃⟩ := replace_m4 ho₂ (ha.congr (he.mono (by grind)))
      (by grind) hs hr
    rw [e₃, Res.bind_ok]
    simp only
    have hk₃ : m₃.obj k ≠ none := by
      rw [he₃ k (by simp), he₂ k (by simp), hs₁]; simp
    rw [write_wrote hk₃, Res.bind_ok]
    have hn₃ := ho₃.nodup
    have ho₄ := ho₃.wrote (p := k) (by simp) (.sl ⟨y, none, false⟩)
    have he₄ : EqOn m₃ (wrote m₃ k (.sl ⟨y, none, false⟩)) (ys ++ (cur :: xs ++ F)) :=
      eqOn_wrote (by grind) _
    have hk₄ := wrote_self m₃ k (.sl ⟨y, none, false⟩)
    generalize wrote m₃ k (.sl ⟨y, none, false⟩) = m₄ at *
    have he₅ : EqOn m m₄ (xs ++ F) := he.trans ((he₃.mono (by grind)).trans (he₄.mono (by grind)))
    obtain ⟨m', qs, e₆, h₆, ho₆, he₆⟩ := ih (F := cur :: xs ++ F) hk₄
      (hy.congr (he₄.mono (by grind))) (ho₄.perm (by pieces)) (ha.congr (he₅.mono (by grind)))
      (by grind) (h₃.congr (he₅.mono (by grind))) (by grind) hrs hu
    refine ⟨m', k :: ys ++ qs, e₆, .cons (b := false) (n := some k) (a := x) ?_ ?_ h₆ ?_, ho₆.perm (by pieces), ?_⟩
    · rw [he₆ cur (by simp), he₄ cur (by simp), he₃ cur (by simp), hc₂]
    · exact hx.congr ((he₅.mono (by grind)).trans (he₆.mono (by grind)))
    · have := ho₆.nodup; grind
    · exact (he₅.mono (by grind)).trans (he₆.mono (by grind))

theorem replace_list {pa : Option Addr} {l : List (Option Str)} {As : List Addr} {m : Mem}
    {F : List Addr} {frm : Option Addr} {fl : List (Str × Bool)} {ps : List Addr}
    {rs : List (Option Str)} (ho : Owns m F) (ha : ArgsAt m pa l As) (hA : ∀ q ∈ As, q ∈ F)
    (hf : SlAt m frm fl ps) (hF : ∀ q ∈ ps, q ∈ F)
    (hr : replaceM4List l (fl.map (·.1)) = .ok rs) :
    ∃ n m' qs, m.replaceM4List pa frm = .ok (n, m') ∧ ArgsAt m' (some n) rs qs ∧
      Owns m' (qs ++ F) ∧ EqOn m m' F := by
  cases hf with
  | nil => simp [replaceM4List] at hr
  | @cons p a n s b fl ps h₁ h₂ h₃ h₄ h₅ =>
  simp only [List.map_cons, replaceM4List] at hr
  split at hr
  · simp at hr
  rename_i as hs
  simp only [replaceM4List.go] at hr
  split at hr
  · simp at hr
  rename_i r' hr'
  split at hr
  · simp at hr
  rename_i rs' hrs
  simp only [Res.ok.injEq] at hr
  subst hr
  have ho₁ := ho.malloc (.sl ⟨none, none, false⟩)
  have he₁ := eqOn_malloc ho (.sl ⟨none, none, false⟩)
  have hs₁ := malloc_self m (.sl ⟨none, none, false⟩)
  have ht : m.top ∉ F := fun hq => by have := ho.below _ hq; omega
  rw [Mem.replaceM4List]
  simp only [malloc_fst]
  generalize hm₁ : (m.malloc (.sl ⟨none, none, false⟩)).2 = m₁ at *
  generalize m.top = k at *
  rw [← he₁ p (by grind)] at h₁
  rw [← he₁ a (by grind)] at h₂
  rw [Mem.getAt, get_eq h₁ (f := Obj.sl?) rfl, Res.bind_ok, Mem.getAt,
    get_eq h₂ (f := Obj.str?) rfl, Res.bind_ok]
  obtain ⟨y, m₃, ys, e₃, hy, ho₃, he₃⟩ := replace_m4 ho₁ (ha.congr (he₁.mono (by grind)))
    (by grind) hs hr'
  rw [e₃, Res.bind_ok]
  simp only
  rw [write_wrote (by rw [he₃ k (by simp), hs₁]; simp), Res.bind_ok]
  have hn₃ := ho₃.nodup
  have ho₄ := ho₃.wrote (p := k) (by simp) (.sl ⟨y, none, false⟩)
  have he₄ : EqOn m₃ (wrote m₃ k (.sl ⟨y, none, false⟩)) (ys ++ F) := eqOn_wrote (by grind) _
  have hk₄ := wrote_self m₃ k (.sl ⟨y, none, false⟩)
  generalize wrote m₃ k (.sl ⟨y, none, false⟩) = m₄ at *
  have he₅ : EqOn m m₄ F := he₁.trans ((he₃.mono (by grind)).trans (he₄.mono (by grind)))
  have hfl : fl.length ≤ m₄.top := by
    have := h₃.length_le
    have := List.Nodup.length_le_of_subset h₃.nodup (l₂ := F) (fun q hq => hF q (by simp [hq]))
    have := ho₄.length_le
    simp at this
    omega
  obtain ⟨m', qs, e₆, h₆, ho₆, he₆⟩ := replace_rest (F := F) hs fl hk₄
    (hy.congr (he₄.mono (by grind))) (ho₄.perm (by pieces)) (ha.congr (he₅.mono (by grind)))
    (by grind) (h₃.congr (he₅.mono (by grind))) (by grind) hrs hfl
  rw [e₆, Res.bind_ok]
  exact ⟨k, m', _, rfl, h₆, ho₆.perm (by pieces), he₅.trans he₆⟩

/-! ## The tables while declarations are added -/

/-- The tables from strings to strings. -/
def StrPart (m : Mem) (t : Tables) (maps : Maps) (T : List Addr) : Prop :=
  ∃ P : StrTable → List Addr, (∀ i, TableAt StrElem m (t.str i) (strContents maps i) (P i)) ∧
    T = strTables.flatMap P

theorem StrPart.congr {m m' : Mem} {t : Tables} {maps : Maps} {T : List Addr}
    (h : StrPart m t maps T) (he : EqOn m m' T) : StrPart m' t maps T := by
  obtain ⟨P, h, rfl⟩ := h
  refine ⟨P, fun i => (h i).congr local_str (he.mono fun q hq => ?_), rfl⟩
  exact List.mem_flatMap.2 ⟨i, mem_strTables i, hq⟩

/-- The other tables are as before. -/
def OthersKept (t t' : Tables) (maps maps' : Maps) : Prop :=
  (t'.flag = t.flag ∧ t'.permmacros = t.permmacros ∧ t'.template = t.template) ∧
  (∀ j, flagContents maps' j = flagContents maps j) ∧ maps'.permmacros = maps.permmacros ∧
    maps'.template = maps.template

theorem OthersKept.refl (t : Tables) (maps : Maps) : OthersKept t t maps maps :=
  ⟨⟨rfl, rfl, rfl⟩, fun _ => rfl, rfl, rfl⟩

theorem OthersKept.trans {t t' t'' : Tables} {maps maps' maps'' : Maps}
    (h : OthersKept t t' maps maps') (h' : OthersKept t' t'' maps' maps'') :
    OthersKept t t'' maps maps'' :=
  ⟨⟨h'.1.1.trans h.1.1, h'.1.2.1.trans h.1.2.1, h'.1.2.2.trans h.1.2.2⟩,
    fun j => (h'.2.1 j).trans (h.2.1 j), h'.2.2.1.trans h.2.2.1, h'.2.2.2.trans h.2.2.2⟩

theorem insert_decl {m : Mem} {t : Tables} {maps : Maps} {T F : List Addr}
    (h : StrPart m t maps T) (ho : Owns m (T ++ F)) (name mod : Str) (fl : DeclFlavor) :
    ∃ m' t' T', m.insertStr t (declStrTable fl) name mod = .ok (m', t') ∧
      StrPart m' t' (maps.insertDecl name mod fl) T' ∧ Owns m' (T' ++ F) ∧ EqOn m m' F ∧
      OthersKept t t' maps (maps.insertDecl name mod fl) := by
  obtain ⟨P, h, rfl⟩ := h
  have hother := insertDecl_other maps name mod fl
  generalize hi : declStrTable fl = i
  obtain ⟨m', t', T', e₁, e₂, e₃, e₄, e₅, e₆, e₇, e₈⟩ := insert_str
    (F := (strTables.filter (· ≠ i)).flatMap P ++ F) (h i)
    (ho.perm (by
      have := strTables_pick P i
      refine (this.append_right _).trans ?_
      simp only [List.append_assoc]; exact List.Perm.refl _)) name mod
  refine ⟨m', t', _, e₁, ⟨fun j => if j = i then T' else P j, ?_, rfl⟩, e₃.perm ?_, e₄.right,
    ⟨e₆, e₇, e₈⟩, hother.2⟩
  · intro j
    simp only
    split
    · rename_i hj
      subst hj; subst hi; rw [insertDecl_same]; exact e₂
    · rename_i hj
      subst hi
      rw [e₅ j hj, hother.1 j hj]
      refine (h j).congr local_str (e₄.mono fun q hq => ?_)
      simp only [List.mem_append, List.mem_flatMap, List.mem_filter]
      exact .inl ⟨j, ⟨mem_strTables j, by simpa using hj⟩, hq⟩
  · have := strTables_pick (fun j => if j = i then T' else P j) i
    simp only [if_true, flatMap_others] at this
    refine List.Perm.symm ((this.append_right _).trans ?_)
    simp only [List.append_assoc]; exact List.Perm.refl _

/-- The loop over the declarations. -/
theorem expand_decls {mod : Str} {pa : Option Addr} {args : List (Option Str)} {As : List Addr} :
    ∀ (ds : List (DeclFlavor × Str)) {m : Mem} {t : Tables} {maps maps' : Maps} {T F : List Addr}
      {d : Option Addr} {ps : List Addr} {e : SelintError} {fuel : Nat},
      DeclsAt m d (ds.map fun x => ⟨x.1, x.2, []⟩) ps → (∀ q ∈ ps, q ∈ F) →
      ArgsAt m pa args As → (∀ q ∈ As, q ∈ F) → StrPart m t maps T → Owns m (T ++ F) →
      ds.length ≤ fuel → expandDecls mod args ds maps = .done e maps' →
      ∃ m' t' T', Mem.expandDecls mod pa fuel d m t = .ok (e, m', t') ∧ StrPart m' t' maps' T' ∧
        Owns m' (T' ++ F) ∧ EqOn m m' F ∧ OthersKept t t' maps maps' := by
  intro ds
  induction ds with
  | nil =>
    intro m t maps maps' T F d ps e fuel hd hps ha hA hT ho hu hx
    cases hd
    simp only [expandDecls, ExpRes.done.injEq] at hx
    obtain ⟨rfl, rfl⟩ := hx
    exact ⟨m, t, T, by cases fuel <;> rfl, hT, ho, EqOn.refl _ _, .refl _ _⟩
  | cons x ds ih =>
    obtain ⟨fl, dn⟩ := x
    intro m t maps maps' T F d ps e fuel hd hps ha hA hT ho hu hx
    obtain _ | fuel := fuel
    · simp at hu
    simp only [List.length_cons, Nat.add_le_add_iff_right] at hu
    simp only [List.map_cons] at hd
    cases hd with
    | @cons p c _ _ p₁ p₂ h₁ h₂ h₃ h₄ =>
    obtain ⟨ce, cn⟩ := c
    simp only at h₂ h₃
    cases h₂ with
    | @mk dp dd _ _ _ q₁ q₂ g₁ g₂ g₃ g₄ g₅ =>
    subst g₂
    cases h₄' : dd.name with
    | none => rw [h₄'] at g₄; cases g₄
    | some sa =>
    rw [h₄'] at g₄
    cases g₄ with
    | mk g₄ =>
    simp only [expandDecls] at hx
    split at hx
    · cases hx
    rename_i as hs
    rw [Mem.expandDecls, get_eq h₁ (f := Obj.cell?) rfl, Res.bind_ok, Mem.getAt,
      get_eq g₁ (f := Obj.decl?) rfl, Res.bind_ok, h₄', Mem.getAt, get_eq g₄ (f := Obj.str?) rfl,
      Res.bind_ok]
    split at hx
    · cases hx
    · rename_i hr
      simp only [ExpRes.done.injEq] at hx
      obtain ⟨rfl, rfl⟩ := hx
      obtain ⟨a, m₁, qs, e₁, ho₁, ho₂, he⟩ := replace_m4 ho ha (by grind) hs hr
      cases ho₁
      rw [e₁, Res.bind_ok]
      exact ⟨m₁, t, T, rfl, hT.congr he.left, ho₂, he.right, .refl _ _⟩
    · rename_i r hr
      obtain ⟨a, m₁, qs, e₁, ho₁, ho₂, he⟩ := replace_m4 ho ha (by grind) hs hr
      cases ho₁ with
      | @some a _ ho₁ =>
      rw [e₁, Res.bind_ok]
      simp only
      rw [get_eq ho₁ (f := Obj.str?) rfl, Res.bind_ok]
      obtain ⟨m₂, t₂, T₂, e₂, hT₂, ho₃, he₂, hk⟩ := insert_decl (F := [a] ++ F)
        (hT.congr he.left) (ho₂.perm (by pieces)) r mod dd.flavor
      rw [e₂, Res.bind_ok]
      simp only
      have ha₂ : m₂.obj a ≠ none := by rw [he₂ a (by simp), ho₁]; simp
      rw [free_ok ha₂, Res.bind_ok]
      have ho₃' : Owns m₂ ([a] ++ (T₂ ++ F)) := ho₃.perm (by pieces)
      have he₄ := ho₃'.eqOn_dropped
      have he₃ : EqOn m (dropped m₂ [a]) F := he.right.trans (he₂.right.trans he₄.right)
      have ho₄ := ho₃'.dropped
      have hT₃ := hT₂.congr he₄.left
      generalize dropped m₂ [a] = m₃ at *
      have hp := h₁
      rw [← he₃ p (by grind)] at hp
      rw [get_eq hp (f := Obj.cell?) rfl, Res.bind_ok]
      obtain ⟨m', t', T', f₁, f₂, f₃, f₄, f₅⟩ := ih (h₃.congr (he₃.mono (by grind))) (by grind)
        (ha.congr (he₃.mono (by grind))) hA hT₃ ho₄ hu hx
      exact ⟨m', t', T', f₁, f₂, f₃, he₃.trans f₄, hk.trans f₅⟩

/-! ## The recursion -/

/-- What is read during an expansion stays where it is: while the memory agrees with `m₀` on
`K`, the templates `t₀` are found in it, with the calls they make. -/
def Readable (callOf : Addr → IfCallData) (m₀ : Mem) (t₀ : Tables) (maps₀ : Maps) (K : List Addr) :
    Prop :=
  ∀ ⦃m : Mem⦄ ⦃t : Tables⦄, EqOn m₀ m K → t.template = t₀.template → ∀ name,
    ∃ d c cs ps qs, m.lookUpTemplateDecls t name = .ok d ∧
      DeclsAt m d ((maps₀.templateDecls name).map fun x => ⟨x.1, x.2, []⟩) ps ∧
      m.lookUpTemplateCalls t name = .ok c ∧ CallsAt m c cs qs ∧
      maps₀.templateCalls name = cs.map callOf ∧ (∀ q ∈ ps ++ qs, q ∈ K) ∧
      ∀ x ∈ cs, ∃ rs, DataAt m (some x) (.ifCall (callOf x)) rs ∧ ∀ q ∈ rs, q ∈ K

theorem readable {callOf : Addr → IfCallData} {m₀ : Mem} {t₀ : Tables} {maps₀ : Maps}
    {B K : List Addr} (h : TableAt (TemplateAt callOf) m₀ t₀.template maps₀.template B)
    (hB : ∀ q ∈ B, q ∈ K) (hc : CallsHeld m₀ callOf t₀ K) : Readable callOf m₀ t₀ maps₀ K := by
  intro m t he ht name
  have h' := h.congr (local_template callOf) (he.mono hB)
  rw [← ht] at h'
  rcases h'.find (key_template callOf) name with ⟨e₁, e₂⟩ |
    ⟨p, v, ps₁, ps₂, l₁, l₂, R₁, Rp, R₂, e₁, e₂, ⟨a, d, c, cs, ps, qs, f₁, f₂, f₃, f₄, f₅, rfl⟩, _, _,
      e₃, _, rfl, _⟩
  · refine ⟨none, none, [], [], [], ?_, ?_, ?_, .nil, ?_, by simp, by simp⟩
    · rw [Mem.lookUpTemplateDecls, Mem.lookUpTemplate, e₁, Res.bind_ok]
    · simp only [Maps.templateDecls, Maps.lookUpTemplate, e₂]; exact .nil
    · rw [Mem.lookUpTemplateCalls, Mem.lookUpTemplate, e₁, Res.bind_ok]
    · simp [Maps.templateCalls, Maps.lookUpTemplate, e₂]
  · refine ⟨d, c, cs, ps, qs, ?_, ?_, ?_, f₄, ?_, by grind, ?_⟩
    · rw [Mem.lookUpTemplateDecls, Mem.lookUpTemplate, e₁, Res.bind_ok]
      simp only
      rw [get_eq f₁ (f := Obj.tmpl?) rfl, Res.bind_ok]
    · simpa only [Maps.templateDecls, Maps.lookUpTemplate, e₂] using f₃
    · rw [Mem.lookUpTemplateCalls, Mem.lookUpTemplate, e₁, Res.bind_ok]
      simp only
      rw [get_eq f₁ (f := Obj.tmpl?) rfl, Res.bind_ok]
    · simpa only [Maps.templateCalls, Maps.lookUpTemplate, e₂] using f₅
    · intro x hx
      have he' : EqOn m m₀ K := fun q hq => (he q hq).symm
      have hp : m₀.obj p = some (.tmpl ⟨some a, d, c⟩) := by
        rw [← f₁, he p (hB p (by simp))]
      obtain ⟨rs, g₁, g₂⟩ := hc p (by rw [← ht, e₃]; simp) _ cs qs hp
        (f₄.congr (he'.mono (by grind))) x hx
      exact ⟨rs, g₁.congr (he.mono g₂), g₂⟩

/-- What the expansion of `name` leaves, `parents` being the names of the enclosing templates. -/
def After (maps₀ : Maps) (e : SelintError) (name : Str) (m m' : Mem) (T' : List Addr)
    (parents : List Str) (Ps F : List Addr) : Prop :=
  (e = .success ∧ Owns m' (T' ++ Ps ++ F) ∧ EqOn m m' Ps) ∨
  (e = .ifCallLoop ∧ Owns m' (T' ++ F)) ∨
  (e = .m4SubFailure ∧ ∃ path last q lost L, Nested maps₀ name path last ∧ Unwritable maps₀ last ∧
    NamesAt m' q (path.reverse ++ parents) L ∧ L.Perm (lost ++ Ps) ∧
    Owns m' (T' ++ lost ++ Ps ++ F) ∧ EqOn m m' Ps)

/-- A recursive call does what it should. -/
def RecOk (m₀ : Mem) (t₀ : Tables) (maps₀ : Maps) (K : List Addr)
    (pp : Option Addr) (parents : List Str) (Ps : List Addr)
    (frec : Str → List (Option Str) → Maps → ExpRes)
    (mrec : Str → Option Addr → Mem → Tables → Res (SelintError × Mem × Tables)) : Prop :=
  ∀ ⦃n : Str⦄ ⦃args : List (Option Str)⦄ ⦃pa : Option Addr⦄ ⦃As : List Addr⦄ ⦃m : Mem⦄ ⦃t : Tables⦄
    ⦃maps maps' : Maps⦄ ⦃T F : List Addr⦄ ⦃e : SelintError⦄,
    ArgsAt m pa args As → (∀ q ∈ As, q ∈ F) → NamesAt m pp parents Ps → StrPart m t maps T →
    Owns m (T ++ Ps ++ F) → (∀ q ∈ K, q ∈ F) → EqOn m₀ m K → t.template = t₀.template →
    maps.template = maps₀.template → frec n args maps = .done e maps' →
    ∃ m' t' T', mrec n pa m t = .ok (e, m', t') ∧ StrPart m' t' maps' T' ∧ EqOn m m' F ∧
      OthersKept t t' maps maps' ∧ After maps₀ e n m m' T' parents Ps F

theorem expand_calls {callOf : Addr → IfCallData} {m₀ : Mem} {t₀ : Tables} {maps₀ : Maps}
    {K : List Addr} {pp : Option Addr} {parents : List Str} {Ps : List Addr}
    {frec : Str → List (Option Str) → Maps → ExpRes}
    {mrec : Str → Option Addr → Mem → Tables → Res (SelintError × Mem × Tables)}
    (hrec : RecOk m₀ t₀ maps₀ K pp parents Ps frec mrec)
    {pa : Option Addr} {args : List (Option Str)} {As : List Addr} :
    ∀ (cs : List Addr) {m : Mem} {t : Tables} {maps maps' : Maps} {T F : List Addr}
      {c : Option Addr} {qs : List Addr} {e : SelintError} {fuel : Nat},
      CallsAt m c cs qs → (∀ q ∈ qs, q ∈ K) →
      (∀ x ∈ cs, ∃ rs, DataAt m (some x) (.ifCall (callOf x)) rs ∧ ∀ q ∈ rs, q ∈ K) →
      ArgsAt m pa args As → (∀ q ∈ As, q ∈ F) → NamesAt m pp parents Ps → StrPart m t maps T →
      Owns m (T ++ Ps ++ F) → (∀ q ∈ K, q ∈ F) → EqOn m₀ m K → t.template = t₀.template →
      maps.template = maps₀.template → cs.length ≤ fuel →
      expandCalls frec args (cs.map callOf) maps = .done e maps' →
      ∃ m' t' T', Mem.expandCalls mrec pa fuel c m t = .ok (e, m', t') ∧ StrPart m' t' maps' T' ∧
        EqOn m m' F ∧ OthersKept t t' maps maps' ∧
        ((e = .success ∧ Owns m' (T' ++ Ps ++ F) ∧ EqOn m m' Ps) ∨
          (e ≠ .success ∧ ∃ x ∈ cs, ∃ m₁, EqOn m m₁ Ps ∧
            After maps₀ e (callOf x).name m₁ m' T' parents Ps F)) := by
  intro cs
  induction cs with
  | nil =>
    intro m t maps maps' T F c qs e fuel hc hqs hd ha hA hN hT ho hK he ht hm hu hx
    cases hc
    simp only [List.map_nil, expandCalls, ExpRes.done.injEq] at hx
    obtain ⟨rfl, rfl⟩ := hx
    exact ⟨m, t, T, by cases fuel <;> rfl, hT, EqOn.refl _ _, .refl _ _,
      .inl ⟨rfl, ho, EqOn.refl _ _⟩⟩
  | cons x cs ih =>
    intro m t maps maps' T F c qs e fuel hc hqs hd ha hA hN hT ho hK he ht hm hu hx
    obtain _ | fuel := fuel
    · simp at hu
    simp only [List.length_cons, Nat.add_le_add_iff_right] at hu
    cases hc with
    | @cons p _ n _ qs h₁ h₂ h₃ =>
    obtain ⟨rs, hdx, hrs⟩ := hd x (by simp)
    simp only [List.map_cons, expandCalls] at hx
    split at hx
    · cases hx
    rename_i newArgs hna
    generalize hco : callOf x = co at *
    cases hdx with
    | @ifCall _ d name al p₁ p₂ g₁ g₂ g₃ g₄ =>
    cases hdn : d.name with
    | none => rw [hdn] at g₂; cases g₂
    | some sa =>
    rw [hdn] at g₂
    cases g₂ with
    | mk g₂ =>
    rw [Mem.expandCalls, get_eq h₁ (f := Obj.cell?) rfl, Res.bind_ok, Mem.getAt,
      get_eq g₁ (f := Obj.call?) rfl, Res.bind_ok]
    obtain ⟨k, m₁, ks, e₁, hk, ho₁, he₁⟩ := replace_list ho ha (by grind) g₃ (by grind) hna
    rw [e₁, Res.bind_ok]
    simp only
    have hP₁ : EqOn m m₁ Ps := he₁.left.right
    have hF₁ : EqOn m m₁ F := he₁.right
    rw [hdn, Mem.getAt, get_eq (f := Obj.str?) (by rw [hF₁ sa (by grind)]; exact g₂) rfl, Res.bind_ok]
    split at hx
    · rename_i maps₂ hf
      obtain ⟨m₂, t₂, T₂, e₂, hT₂, hF₂, hk₂, haft⟩ := hrec (F := ks ++ F) hk (by simp +contextual)
        (hN.congr hP₁) (hT.congr he₁.left.left) (ho₁.perm (by pieces)) (by grind)
        (he.trans (hF₁.mono hK)) ht hm hf
      rcases haft with ⟨_, ho₂, hP₂⟩ | ⟨h, _⟩ | ⟨h, _⟩
      rotate_left
      · cases h
      · cases h
      rw [e₂, Res.bind_ok]
      simp only
      have hkl : newArgs.length ≤ m₂.top := by
        have := hk.length
        have := ho₂.length_le
        simp at this
        omega
      rw [free_args hk hF₂.left hkl, Res.bind_ok]
      simp only [ne_eq, not_true_eq_false, if_false]
      have ho₂' : Owns m₂ (ks ++ (T₂ ++ Ps ++ F)) := ho₂.perm (by pieces)
      have ho₃ := ho₂'.dropped
      have he₃ := ho₂'.eqOn_dropped
      have hF₃ : EqOn m (dropped m₂ ks) F := hF₁.trans (hF₂.right.trans he₃.right)
      have hP₃ : EqOn m (dropped m₂ ks) Ps := hP₁.trans (hP₂.trans he₃.left.right)
      have hT₃ := hT₂.congr he₃.left.left
      generalize dropped m₂ ks = m₃ at *
      rw [get_eq (f := Obj.cell?) (by rw [hF₃ p (by grind)]; exact h₁) rfl, Res.bind_ok]
      have hK₃ := hF₃.mono hK
      obtain ⟨m', t', T', f₁, f₂, f₃, f₄, f₅⟩ := ih (h₂.congr (hK₃.mono (by grind))) (by grind)
        (fun y hy => by
          obtain ⟨rs, i₁, i₂⟩ := hd y (by simp [hy])
          exact ⟨rs, i₁.congr (hK₃.mono i₂), i₂⟩)
        (ha.congr (hF₃.mono (by grind))) hA (hN.congr hP₃) hT₃ ho₃ hK (he.trans hK₃)
        (by rw [hk₂.1.2.2, ht]) (by rw [hk₂.2.2.2, hm]) hu hx
      refine ⟨m', t', T', f₁, f₂, hF₃.trans f₃, hk₂.trans f₄, ?_⟩
      rcases f₅ with ⟨i₁, i₂, i₃⟩ | ⟨i₁, y, hy, m₅, i₂, i₃⟩
      · exact .inl ⟨i₁, i₂, hP₃.trans i₃⟩
      · exact .inr ⟨i₁, y, by simp [hy], m₅, hP₃.trans i₂, i₃⟩
    · rename_i hne
      cases hf : frec name newArgs maps with
      | ub => rw [hf] at hx; cases hx
      | fuel => rw [hf] at hx; cases hx
      | done e₀ maps₂ =>
      rw [hf] at hx hne
      cases hx
      have hes : e ≠ .success := by rintro rfl; exact hne _ rfl
      obtain ⟨m₂, t₂, T₂, e₂, hT₂, hF₂, hk₂, haft⟩ := hrec (F := ks ++ F) hk (by simp +contextual)
        (hN.congr hP₁) (hT.congr he₁.left.left) (ho₁.perm (by pieces)) (by grind)
        (he.trans (hF₁.mono hK)) ht hm hf
      rw [e₂, Res.bind_ok]
      simp only
      rcases haft with ⟨h, _⟩ | ⟨h, ho₂⟩ | ⟨h, path, last, q, lost, L, a₁, a₂, a₃, a₄, ho₂, hP₂⟩
      · exact absurd h hes
      · have hkl : newArgs.length ≤ m₂.top := by
          have := hk.length
          have := ho₂.length_le
          simp at this
          omega
        rw [free_args hk hF₂.left hkl, Res.bind_ok, if_pos hes]
        have ho₂' : Owns m₂ (ks ++ (T₂ ++ F)) := ho₂.perm (by pieces)
        have he₃ := ho₂'.eqOn_dropped
        refine ⟨_, t₂, T₂, rfl, hT₂.congr he₃.left, hF₁.trans (hF₂.right.trans he₃.right), hk₂,
          .inr ⟨hes, x, by simp, m₁, hP₁, .inr (.inl ⟨h, ho₂'.dropped⟩)⟩⟩
      · have hkl : newArgs.length ≤ m₂.top := by
          have := hk.length
          have := ho₂.length_le
          simp at this
          omega
        rw [free_args hk hF₂.left hkl, Res.bind_ok, if_pos hes]
        have ho₂' : Owns m₂ (ks ++ (T₂ ++ (lost ++ Ps) ++ F)) := ho₂.perm (by pieces)
        have he₃ := ho₂'.eqOn_dropped
        refine ⟨_, t₂, T₂, rfl, hT₂.congr he₃.left.left, hF₁.trans (hF₂.right.trans he₃.right), hk₂,
          .inr ⟨hes, x, by simp, m₁, hP₁, .inr (.inr ⟨h, path, last, q, lost, L, ?_, a₂,
            a₃.congr (he₃.left.right.mono fun q hq => a₄.mem_iff.1 hq), a₄,
            ho₂'.dropped.perm (by pieces), hP₂.trans he₃.left.right.right⟩)⟩⟩
        rw [hco]; exact a₁

theorem Spec.CallsAt.nodup {m p cs ps} (h : CallsAt m p cs ps) : ps.Nodup := by
  induction h with
  | nil => simp
  | cons _ _ _ ih => grind

theorem Spec.DeclsAt.nodup {m p ds ps} (h : DeclsAt m p ds ps) : ps.Nodup := by
  cases h <;> first | assumption | simp

/-- The whole recursion. -/
theorem expand_rec {callOf : Addr → IfCallData} {m₀ : Mem} {t₀ : Tables} {maps₀ : Maps}
    {K : List Addr} (hR : Readable callOf m₀ t₀ maps₀ K) {mod : Str} :
    ∀ (fuel : Nat) {pp : Option Addr} {parents : List Str} {Ps : List Addr},
      RecOk m₀ t₀ maps₀ K pp parents Ps
        (fun n a maps => addTemplateDeclarations fuel n a parents mod maps)
        (fun n a m t => Mem.addTemplateDeclarations fuel n a pp mod m t) := by
  intro fuel
  induction fuel with
  | zero =>
    intro pp parents Ps n args pa As m t maps maps' T F e ha hA hN hT ho hK he ht hm hx
    cases hx
  | succ fuel ih =>
    intro pp parents Ps n args pa As m t maps maps' T F e ha hA hN hT ho hK he ht hm hx
    have hl : parents.length ≤ m.top := by
      have := hN.length_le
      have := ho.length_le
      simp at *
      omega
    simp only [addTemplateDeclarations] at hx
    show ∃ m' t' T', Mem.addTemplateDeclarations (fuel + 1) n pa pp mod m t = _ ∧ _
    rw [Mem.addTemplateDeclarations, is_enclosing hN n (by simpa using hl), Res.bind_ok]
    simp only [List.map_map, Function.comp_def, List.map_id']
    split at hx
    · rename_i hin
      simp only [ExpRes.done.injEq] at hx
      obtain ⟨rfl, rfl⟩ := hx
      rw [if_pos hin, freeStringList_eq hN (by simpa using hl), Res.bind_ok]
      have ho' : Owns m (Ps ++ (T ++ F)) := ho.perm (by pieces)
      exact ⟨_, t, T, rfl, hT.congr ho'.eqOn_dropped.left, ho'.eqOn_dropped.right, .refl _ _,
        .inr (.inl ⟨rfl, ho'.dropped⟩)⟩
    rename_i hin
    rw [if_neg hin]
    simp only [malloc_fst]
    have ho₁ := ho.malloc (.sl ⟨none, none, false⟩)
    have he₁ := eqOn_malloc ho (.sl ⟨none, none, false⟩)
    have hs₁ := malloc_self m (.sl ⟨none, none, false⟩)
    have ht₁ : (m.malloc (.sl ⟨none, none, false⟩)).2.top = m.top + 1 := malloc_top _ _
    generalize hm₁ : (m.malloc (.sl ⟨none, none, false⟩)).2 = m₁ at *
    have ho₂ := ho₁.malloc (.bytes n)
    have he₂ := eqOn_malloc ho₁ (.bytes n)
    have hs₂ := malloc_self m₁ (.bytes n)
    generalize hm₂ : (m₁.malloc (.bytes n)).2 = m₂ at *
    generalize hcur : m.top = cur at *
    generalize ha' : m₁.top = a at *
    rw [write_wrote (by rw [he₂ cur (by simp), hs₁]; simp), Res.bind_ok]
    have hn₂ := ho₂.nodup
    have ho₃ := ho₂.wrote (p := cur) (by simp) (.sl ⟨some a, pp, false⟩)
    have he₃ : EqOn m₂ (wrote m₂ cur (.sl ⟨some a, pp, false⟩)) ([a] ++ (T ++ Ps ++ F)) :=
      eqOn_wrote (by grind) _
    have hs₃ := wrote_self m₂ cur (.sl ⟨some a, pp, false⟩)
    generalize wrote m₂ cur (.sl ⟨some a, pp, false⟩) = m₃ at *
    have ha₃ : m₃.obj a = some (.bytes n) := by rw [he₃ a (by simp), hs₂]
    have hE : EqOn m m₃ (T ++ Ps ++ F) := he₁.trans (he₂.right.trans he₃.right)
    have hEK : EqOn m₀ m₃ K := he.trans (hE.right.mono hK)
    have hN₃ : NamesAt m₃ (some cur) (n :: parents) (cur :: a :: Ps) :=
      .cons hs₃ ha₃ (hN.congr hE.left.right) (by grind) (by grind)
    obtain ⟨_, c, cs, _, qs, _, _, hc, hcs, hcm, hin', hdata⟩ := hR hEK ht n
    rw [hc, Res.bind_ok]
    have hcl : cs.length ≤ m₃.top := by
      have := hcs.length_le
      have := List.Nodup.length_le_of_subset hcs.nodup (l₂ := F) (fun q hq => hK q (hin' q (by simp [hq])))
      have := ho₃.length_le
      simp at this
      omega
    have hcalls : ∀ {e₁ maps₁}, expandCalls (fun n' a m' =>
        addTemplateDeclarations fuel n' a (n :: parents) mod m') args (maps.templateCalls n) maps =
          .done e₁ maps₁ → _ := fun {e₁ maps₁} hx =>
      expand_calls (ih (pp := some cur) (parents := n :: parents) (Ps := cur :: a :: Ps)) cs hcs
        (by grind) hdata (ha.congr (hE.right.mono hA)) hA hN₃ (hT.congr hE.left.left)
        (ho₃.perm (by pieces)) hK hEK ht hm hcl
        (by rw [templateCalls_congr hm, hcm] at hx; exact hx)
    split at hx
    · rename_i maps₁ hf
      obtain ⟨m₄, t₄, T₄, e₄, hT₄, hF₄, hk₄, haft⟩ := hcalls hf
      rcases haft with ⟨_, ho₄, hP₄⟩ | ⟨h, _⟩
      rotate_left
      · exact absurd rfl h
      rw [e₄, Res.bind_ok]
      simp only [ne_eq, not_true_eq_false, if_false]
      have hEK₄ : EqOn m₀ m₄ K := hEK.trans (hF₄.mono hK)
      have ht₄ : t₄.template = t₀.template := by rw [hk₄.1.2.2, ht]
      have hm₄ : maps₁.template = maps₀.template := by rw [hk₄.2.2.2, hm]
      obtain ⟨d, _, _, ps, _, hd, hds, _, _, _, hin₄, _⟩ := hR hEK₄ ht₄ n
      rw [hd, Res.bind_ok]
      rw [templateDecls_congr hm] at hx
      have hdl : (maps₀.templateDecls n).length ≤ m₄.top := by
        have := hds.length_le
        have := List.Nodup.length_le_of_subset hds.nodup (l₂ := F) (fun q hq => hK q (hin₄ q (by simp [hq])))
        have := ho₄.length_le
        simp at *
        omega
      obtain ⟨m₅, t₅, T₅, e₅, hT₅, ho₅, he₅, hk₅⟩ := expand_decls (F := cur :: a :: Ps ++ F)
        (maps₀.templateDecls n) hds (by grind) (ha.congr ((hE.right.trans hF₄).mono hA)) (by grind) hT₄
        (ho₄.perm (by pieces)) hdl hx
      rw [e₅, Res.bind_ok]
      simp only
      have hc₅ : m₅.obj cur = some (.sl ⟨some a, pp, false⟩) := by
        rw [he₅ cur (by simp), hP₄ cur (by simp), hs₃]
      have ha₅ : m₅.obj a = some (.bytes n) := by
        rw [he₅ a (by simp), hP₄ a (by simp), ha₃]
      have hn₅ := ho₅.nodup
      rw [get_eq hc₅ (f := Obj.sl?) rfl, Res.bind_ok, free_ok (by rw [ha₅]; simp), Res.bind_ok,
        free_ok (by rw [dropped_obj, hc₅]; simp; grind), Res.bind_ok, dropped_dropped]
      have ho₅' : Owns m₅ (([a] ++ [cur]) ++ (T₅ ++ Ps ++ F)) := ho₅.perm (by pieces)
      have he₆ := ho₅'.eqOn_dropped
      have hP : EqOn m (dropped m₅ ([a] ++ [cur])) Ps :=
        hE.left.right.trans ((hP₄.mono (by grind)).trans ((he₅.mono (by grind)).trans he₆.left.right))
      refine ⟨_, t₅, T₅, rfl, hT₅.congr he₆.left.left,
        hE.right.trans (hF₄.trans ((he₅.mono (by grind)).trans he₆.right)), hk₄.trans hk₅, ?_⟩
      rcases expandDecls_codes hx with rfl | rfl
      · exact .inl ⟨rfl, ho₅'.dropped, hP⟩
      · refine .inr (.inr ⟨rfl, [], n, pp, [], Ps, .here, ?_, hN.congr hP, .refl _, ?_, hP⟩)
        · exact expandDecls_failure hx
        · simpa using ho₅'.dropped
    · rename_i hne
      obtain ⟨m₄, t₄, T₄, e₄, hT₄, hF₄, hk₄, haft⟩ := hcalls hx
      have hes : e ≠ .success := by rintro rfl; exact hne _ hx
      rcases haft with ⟨h, _⟩ | ⟨_, x, hxc, m₅, hP₅, haft⟩
      · exact absurd h hes
      rw [e₄, Res.bind_ok]
      simp only
      rw [if_pos hes]
      refine ⟨m₄, t₄, T₄, rfl, hT₄, hE.right.trans hF₄, hk₄, ?_⟩
      rcases haft with ⟨h, _⟩ | ⟨h, ho₄⟩ | ⟨h, path, last, q, lost, L, a₁, a₂, a₃, a₄, ho₄, hP₄⟩
      · exact absurd h hes
      · exact .inr (.inl ⟨h, ho₄⟩)
      · refine .inr (.inr ⟨h, n :: path, last, q, lost ++ [cur, a], L, .call ?_ a₁, a₂, ?_, ?_, ?_, ?_⟩)
        · rw [hcm]; exact List.mem_map_of_mem hxc
        · simpa using a₃
        · exact a₄.trans (by pieces)
        · exact ho₄.perm (by pieces)
        · exact hE.left.right.trans ((hP₅.trans hP₄).mono (by grind))

end Selint
