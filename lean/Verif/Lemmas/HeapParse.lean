import Verif.Lemmas.Heap
import Verif.Model.HeapParse
import Verif.Lemmas.Loc
/-! # The pointer operations of the parser follow the functional ones -/

namespace Selint

namespace Spec.Forest

/-- Two lists of siblings one after the other. -/
def app : Forest → Forest → Forest
  | nil, g => g
  | node p i k r, g => node p i k (r.app g)

theorem addrs_app (f g : Forest) : (f.app g).addrs = f.addrs ++ g.addrs := by
  induction f with
  | nil => rfl
  | node p i k r _ ih => simp [app, addrs, ih]

theorem trees_app (f g : Forest) : (f.app g).trees = f.trees ++ g.trees := by
  induction f with
  | nil => rfl
  | node p i k r _ ih => simp [app, trees, ih]

theorem trees_snoc (f : Forest) (p : Ptr) (i : NodeInfo) :
    (f.snoc p i).trees = f.trees ++ [.mk i []] := by
  induction f with
  | nil => rfl
  | node q j k r _ ih => simp [snoc, trees, ih]

theorem app_assoc (f g k : Forest) : (f.app g).app k = f.app (g.app k) := by
  induction f with
  | nil => rfl
  | node p i k r _ ih => simp [app, ih]

theorem addNext_app {t p : Ptr} {i : NodeInfo} (f g : Forest) (h : t ∉ f.addrs) :
    (f.app g).addNext t p i = f.app (g.addNext t p i) := by
  induction f with
  | nil => rfl
  | node q j k r _ ih =>
    simp only [addrs, List.mem_cons, List.mem_append, not_or] at h
    rw [app, addNext, if_neg (fun e => h.1 e.symm), ih h.2.2, addNext_of_not_mem k h.2.1, app]

theorem addChild_app {t p : Ptr} {i : NodeInfo} (f g : Forest) (h : t ∉ f.addrs) :
    (f.app g).addChild t p i = f.app (g.addChild t p i) := by
  induction f with
  | nil => rfl
  | node q j k r _ ih =>
    simp only [addrs, List.mem_cons, List.mem_append, not_or] at h
    rw [app, addChild, if_neg (fun e => h.1 e.symm), ih h.2.2, addChild_of_not_mem k h.2.1, app]

theorem lasts_app {t : Ptr} (f g : Forest) (h : t ∈ g.lasts) : t ∈ (f.app g).lasts := by
  induction f with
  | nil => exact h
  | node q j k r _ ih => rw [app, mem_lasts_node]; exact .inr (.inr ih)

/-- Change what the node at address `t` holds. -/
def mapInfo (t : Ptr) (fn : NodeInfo → NodeInfo) : Forest → Forest
  | nil => nil
  | node q j k r => node q (if q = t then fn j else j) (k.mapInfo t fn) (r.mapInfo t fn)

theorem mapInfo_of_not_mem {t : Ptr} {fn : NodeInfo → NodeInfo} (f : Forest) (ht : t ∉ f.addrs) :
    f.mapInfo t fn = f := by
  induction f with
  | nil => rfl
  | node q j k r ihk ihr =>
    simp only [addrs, List.mem_cons, List.mem_append, not_or] at ht
    rw [mapInfo, if_neg (fun h => ht.1 h.symm), ihk ht.2.1, ihr ht.2.2]

theorem mapInfo_app {t : Ptr} {fn : NodeInfo → NodeInfo} (f g : Forest) (h : t ∉ f.addrs) :
    (f.app g).mapInfo t fn = f.app (g.mapInfo t fn) := by
  induction f with
  | nil => rfl
  | node q j k r _ ih =>
    simp only [addrs, List.mem_cons, List.mem_append, not_or] at h
    rw [app, mapInfo, if_neg (fun e => h.1 e.symm), ih h.2.2, mapInfo_of_not_mem k h.2.1, app]

theorem addrs_mapInfo (t : Ptr) (fn : NodeInfo → NodeInfo) (f : Forest) :
    (f.mapInfo t fn).addrs = f.addrs := by
  induction f with
  | nil => rfl
  | node q j k r ihk ihr => simp [mapInfo, addrs, ihk, ihr]

theorem head_mapInfo (t : Ptr) (fn : NodeInfo → NodeInfo) (f : Forest) :
    (f.mapInfo t fn).head = f.head := by
  cases f <;> rfl

theorem linked_mapInfo {h : Heap} {t : Ptr} {fn : NodeInfo → NodeInfo} {n : HNode}
    (ht : h t = some n) (f : Forest) : ∀ (par prev : Option Ptr), Linked h par prev f →
    Linked (h.set t { n with info := fn n.info }) par prev (f.mapInfo t fn) := by
  induction f with
  | nil => intros; exact linked_nil _ _ _
  | node q j k r ihk ihr =>
    intro par prev hl
    rw [linked_node] at hl
    rw [mapInfo, linked_node, head_mapInfo, head_mapInfo]
    refine ⟨?_, ihk _ _ hl.2.1, ihr _ _ hl.2.2⟩
    by_cases hq : q = t
    · subst hq
      rw [hl.1] at ht
      cases ht
      rw [Heap.set_self, if_pos rfl]
    · rw [Heap.set_ne _ _ hq, if_neg hq, hl.1]

end Spec.Forest

open Spec Forest

/-- A cursor with addresses: the node, its children, its left siblings, and the enclosing
nodes with their left siblings, innermost first. Nothing follows the cursor or an enclosing
node. -/
structure ALoc where
  ptr : Ptr
  info : NodeInfo
  kids : Forest
  lefts : Forest
  ups : List (Ptr × NodeInfo × Forest)

namespace ALoc

/-- Put siblings back below the enclosing nodes. -/
def wrap (f : Forest) : List (Ptr × NodeInfo × Forest) → Forest
  | [] => f
  | (p, i, ls) :: us => wrap (ls.app (node p i f nil)) us

/-- The whole picture. -/
def forest (z : ALoc) : Forest := wrap (z.lefts.app (node z.ptr z.info z.kids nil)) z.ups

/-- The functional cursor. -/
def loc (z : ALoc) : Loc :=
  ⟨.mk z.info z.kids.trees, z.lefts.trees.reverse, [],
    z.ups.map fun (_, i, ls) => ⟨ls.trees.reverse, i, []⟩⟩

theorem trees_wrap (f : Forest) (us : List (Ptr × NodeInfo × Forest)) :
    (wrap f us).trees = Loc.plug f.trees (us.map fun (_, i, ls) => ⟨ls.trees.reverse, i, []⟩) := by
  induction us generalizing f with
  | nil => rfl
  | cons u us ih =>
    obtain ⟨p, i, ls⟩ := u
    simp only [wrap, ih, List.map_cons, Loc.plug, trees_app, trees, List.reverse_reverse]

theorem trees_forest (z : ALoc) : z.forest.trees = z.loc.unzip := by
  rw [forest, trees_wrap, Loc.unzip]
  simp [loc, Loc.siblings, trees_app, trees]

theorem addrs_wrap {f g : Forest} (us : List (Ptr × NodeInfo × Forest))
    (h : ∀ x, x ∈ f.addrs → x ∈ g.addrs) : ∀ x, x ∈ (wrap f us).addrs → x ∈ (wrap g us).addrs := by
  induction us generalizing f g with
  | nil => exact h
  | cons u us ih =>
    obtain ⟨p, i, ls⟩ := u
    refine ih ?_
    intro x
    simp only [addrs_app, addrs, List.mem_append, List.mem_cons, List.not_mem_nil, or_false]
    rintro (h1 | h1 | h1)
    · exact .inl h1
    · exact .inr (.inl h1)
    · exact .inr (.inr (h x h1))

theorem mem_wrap {f : Forest} (us : List (Ptr × NodeInfo × Forest)) {x : Ptr} (h : x ∈ f.addrs) :
    x ∈ (wrap f us).addrs := by
  induction us generalizing f with
  | nil => exact h
  | cons u us ih =>
    obtain ⟨p, i, ls⟩ := u
    refine ih ?_
    simp only [addrs_app, addrs, List.mem_append, List.mem_cons, List.not_mem_nil, or_false]
    exact .inr (.inr h)

theorem nodup_wrap {f : Forest} (us : List (Ptr × NodeInfo × Forest)) (h : (wrap f us).addrs.Nodup) :
    f.addrs.Nodup := by
  induction us generalizing f with
  | nil => exact h
  | cons u us ih =>
    obtain ⟨p, i, ls⟩ := u
    have := ih h
    rw [addrs_app, List.nodup_append] at this
    have := this.2.1
    rw [nodup_node] at this
    exact this.2.2.1

/-- An operation on a node of the innermost siblings leaves the enclosing picture alone. -/
theorem wrap_op {op : Forest → Forest} {t : Ptr}
    (hop : ∀ a b : Forest, t ∉ a.addrs → op (a.app b) = a.app (op b))
    (hnode : ∀ (q : Ptr) (j : NodeInfo) (k : Forest), q ≠ t → op (node q j k nil) = node q j (op k) nil)
    (us : List (Ptr × NodeInfo × Forest)) : ∀ (f : Forest), t ∈ f.addrs →
    (wrap f us).addrs.Nodup → op (wrap f us) = wrap (op f) us := by
  induction us with
  | nil => intros; rfl
  | cons u us ih =>
    obtain ⟨p, i, ls⟩ := u
    intro f ht hnd
    have hn := nodup_wrap us hnd
    rw [addrs_app, List.nodup_append] at hn
    have hn2 := hn.2.1
    rw [nodup_node] at hn2
    have hls : t ∉ ls.addrs := by
      intro hh
      refine hn.2.2 t hh t ?_ rfl
      simp [addrs, ht]
    have hp : p ≠ t := by rintro rfl; exact hn2.1 ht
    rw [wrap, ih _ ?_ hnd, hop _ _ hls, hnode _ _ _ hp, wrap]
    simp [addrs_app, addrs, ht]

theorem addNext_forest (z : ALoc) (p : Ptr) (i : NodeInfo) (hnd : z.forest.addrs.Nodup) :
    z.forest.addNext z.ptr p i =
      ({ ptr := p, info := i, kids := nil, lefts := z.lefts.app (node z.ptr z.info z.kids nil),
         ups := z.ups } : ALoc).forest := by
  rw [forest, wrap_op (op := addNext z.ptr p i) (t := z.ptr)]
  · have hn := nodup_wrap z.ups hnd
    rw [addrs_app, List.nodup_append] at hn
    rw [addNext_app _ _ (fun h => hn.2.2 z.ptr h z.ptr (by simp [addrs]) rfl), addNext, if_pos rfl,
      forest, app_assoc]
    rfl
  · exact fun a b h => addNext_app a b h
  · intro q j k hq; rw [addNext, if_neg hq]; rfl
  · simp [addrs_app, addrs]
  · exact hnd

theorem addChild_forest (z : ALoc) (p : Ptr) (i : NodeInfo) (hnd : z.forest.addrs.Nodup) :
    z.forest.addChild z.ptr p i = ({ z with kids := z.kids.snoc p i } : ALoc).forest := by
  rw [forest, wrap_op (op := addChild z.ptr p i) (t := z.ptr)]
  · have hn := nodup_wrap z.ups hnd
    rw [addrs_app, List.nodup_append] at hn
    rw [addChild_app _ _ (fun h => hn.2.2 z.ptr h z.ptr (by simp [addrs]) rfl), addChild, if_pos rfl]
    rfl
  · exact fun a b h => addChild_app a b h
  · intro q j k hq; rw [addChild, if_neg hq]; rfl
  · simp [addrs_app, addrs]
  · exact hnd

theorem mapInfo_forest (z : ALoc) (fn : NodeInfo → NodeInfo) (hnd : z.forest.addrs.Nodup) :
    z.forest.mapInfo z.ptr fn = ({ z with info := fn z.info } : ALoc).forest := by
  rw [forest, wrap_op (op := mapInfo z.ptr fn) (t := z.ptr)]
  · have hn := nodup_wrap z.ups hnd
    rw [addrs_app, List.nodup_append] at hn
    have hn2 := hn.2.1
    rw [nodup_node] at hn2
    rw [mapInfo_app _ _ (fun h => hn.2.2 z.ptr h z.ptr (by simp [addrs]) rfl), mapInfo, if_pos rfl,
      mapInfo_of_not_mem z.kids hn2.1]
    rfl
  · exact fun a b h => mapInfo_app a b h
  · intro q j k hq; rw [mapInfo, if_neg hq]; rfl
  · simp [addrs_app, addrs]
  · exact hnd

theorem lasts_wrap {t : Ptr} (us : List (Ptr × NodeInfo × Forest)) : ∀ (f : Forest), t ∈ f.lasts →
    t ∈ (wrap f us).lasts := by
  induction us with
  | nil => intro f h; exact h
  | cons u us ih =>
    obtain ⟨p, i, ls⟩ := u
    intro f h
    refine ih _ (lasts_app _ _ ?_)
    rw [mem_lasts_node]
    exact .inr (.inl h)

theorem ptr_lasts (z : ALoc) : z.ptr ∈ z.forest.lasts :=
  lasts_wrap _ _ (lasts_app _ _ (by simp [lasts]))

theorem ptr_mem (z : ALoc) : z.ptr ∈ z.forest.addrs := lasts_mem z.ptr_lasts

/-- The heap holds exactly the picture. -/
structure Exact (h : Heap) (f : Forest) : Prop where
  holds : Holds h f
  only : ∀ q, q ∉ f.addrs → h q = none

theorem linked_of_wrap {h : Heap} (us : List (Ptr × NodeInfo × Forest)) : ∀ (f : Forest),
    Linked h none none (wrap f us) →
    Linked h ((us.head?).map (·.1)) none f := by
  induction us with
  | nil => intro f hl; exact hl
  | cons u us ih =>
    obtain ⟨p, i, ls⟩ := u
    intro f hl
    have := ih _ hl
    revert this
    generalize (us.head?.map (·.1)) = par
    intro this
    simp only [List.head?_cons, Option.map_some]
    have aux : ∀ (ls : Forest) (prev : Option Ptr), Linked h par prev (ls.app (node p i f nil)) →
        ∃ prev', Linked h par prev' (node p i f nil) := by
      intro ls
      induction ls with
      | nil => intro prev hh; exact ⟨prev, hh⟩
      | node q j k r _ ih2 => intro prev hh; rw [app, linked_node] at hh; exact ih2 _ hh.2.2
    obtain ⟨prev', hh⟩ := aux ls _ this
    rw [linked_node] at hh
    exact hh.2.1

theorem linked_last {h : Heap} {par : Option Ptr} {g : Forest} (ls : Forest) : ∀ (prev : Option Ptr),
    Linked h par prev (ls.app g) → ∃ prev', Linked h par prev' g := by
  induction ls with
  | nil => intro prev hh; exact ⟨prev, hh⟩
  | node q j k r _ ih2 => intro prev hh; rw [app, linked_node] at hh; exact ih2 _ hh.2.2

/-- What the node under the cursor holds on the heap. -/
theorem read_cur {h : Heap} {z : ALoc} (hl : Linked h none none z.forest) :
    ∃ prev, h z.ptr = some ⟨z.info, z.ups.head?.map (·.1), prev, none, z.kids.head⟩ := by
  obtain ⟨prev, hh⟩ := linked_last _ _ (linked_of_wrap _ _ hl)
  rw [linked_node] at hh
  exact ⟨prev, hh.1⟩

theorem app_nil (f : Forest) : f.app nil = f := by
  induction f with
  | nil => rfl
  | node p i k r _ ih => rw [app, ih]

/-- Moving the cursor to the enclosing node. -/
theorem forest_up (z : ALoc) {p : Ptr} {i : NodeInfo} {ls : Forest}
    {us : List (Ptr × NodeInfo × Forest)} (h : z.ups = (p, i, ls) :: us) :
    ({ ptr := p, info := i, kids := z.lefts.app (node z.ptr z.info z.kids nil), lefts := ls,
       ups := us } : ALoc).forest = z.forest := by
  rw [forest, forest, h]; rfl

theorem step_next {h : Heap} {z : ALoc} {i : NodeInfo} {p : Ptr} (he : Exact h z.forest)
    (hp : p ∉ z.forest.addrs) :
    ∃ (h' : Heap) (z' : ALoc), HeapCursor.addNext ⟨h, z.ptr⟩ i p = .ok ⟨h', p⟩ ∧ z'.ptr = p ∧ z'.kids = nil ∧
      Exact h' z'.forest ∧ z'.loc = z.loc.addNext i ∧
      z'.forest.size = z.forest.size + 1 ∧ z'.lefts = z.lefts.app (node z.ptr z.info z.kids nil) ∧
      z'.info = i ∧ z'.ups = z.ups ∧ z'.forest.head = z.forest.head ∧
      ∀ x, x ∈ z'.forest.addrs ↔ x = p ∨ x ∈ z.forest.addrs := by
  obtain ⟨⟨hnd, hl⟩, honly⟩ := he
  obtain ⟨h', e, hl', hfr⟩ := insertNext_linked (i := i) z.forest none none hl hnd z.ptr_lasts hp
  have hnd' := nodup_addNext (t := z.ptr) (i := i) z.forest hnd hp
  have hmem := mem_addrs_addNext (p := p) (i := i) z.forest z.ptr_mem
  have hh := read_cur (z := z) hl
  rw [addNext_forest z p i hnd] at hl' hnd' hmem
  obtain ⟨prev, hh⟩ := hh
  have hcur : h' = (h.set z.ptr ⟨z.info, z.ups.head?.map (·.1), prev, some p, z.kids.head⟩).set p ⟨i, z.ups.head?.map (·.1), some z.ptr, none, none⟩ := by
    simp only [Heap.insertNext, Heap.read_some hh, Res.bind_ok, Res.ok.injEq, Prod.mk.injEq,
      true_and] at e
    exact e.symm
  have hne : z.ptr ≠ p := by rintro rfl; exact hp z.ptr_mem
  have hread : h' z.ptr = some ⟨z.info, z.ups.head?.map (·.1), prev, some p, z.kids.head⟩ := by
    rw [hcur, Heap.set_ne _ _ hne, Heap.set_self]
  refine ⟨h', { ptr := p, info := i, kids := nil, lefts := z.lefts.app (node z.ptr z.info z.kids nil), ups := z.ups },
    ?_, rfl, rfl, ⟨⟨hnd', hl'⟩, ?_⟩, ?_, ?_, rfl, rfl, rfl, ?_, hmem⟩
  · simp only [HeapCursor.addNext, e, Res.bind_ok, Heap.read_some hread]
  · intro q hq
    rw [hmem, not_or] at hq
    rw [hfr q hq.2 hq.1]
    exact honly q hq.2
  · simp [loc, Loc.addNext, trees_app, trees]
  · rw [← addNext_forest z p i hnd, ← length_addrs, ← length_addrs]
    have aux : ∀ (f : Forest), f.addrs.Nodup → z.ptr ∈ f.addrs →
        (f.addNext z.ptr p i).addrs.length = f.addrs.length + 1 := by
      intro f
      induction f with
      | nil => intro _ hm; simp [addrs] at hm
      | node q j k r ihk ihr =>
        intro hn hm
        rw [nodup_node] at hn
        simp only [addrs, List.mem_cons, List.mem_append] at hm
        rw [Forest.addNext]
        by_cases hq : q = z.ptr
        · rw [if_pos hq]; simp [addrs]; omega
        · rw [if_neg hq]
          rcases hm with hm | hm | hm
          · exact absurd hm.symm hq
          · rw [addNext_of_not_mem r (hn.2.2.2.2 _ hm)]
            have := ihk hn.2.2.1 hm
            simp [addrs, this]; omega
          · rw [addNext_of_not_mem k (fun hk => hn.2.2.2.2 _ hk hm)]
            have := ihr hn.2.2.2.1 hm
            simp [addrs, this]; omega
    exact aux _ hnd z.ptr_mem
  · rw [← addNext_forest z p i hnd, head_addNext]

theorem size_snoc (f : Forest) (p : Ptr) (i : NodeInfo) : (f.snoc p i).size = f.size + 1 := by
  rw [← length_addrs, addrs_snoc, ← length_addrs]; simp

theorem size_app (f g : Forest) : (f.app g).size = f.size + g.size := by
  rw [← length_addrs, addrs_app, ← length_addrs, ← length_addrs]; simp

theorem size_wrap (us : List (Ptr × NodeInfo × Forest)) : ∀ (f g : Forest) (d : Nat),
    g.size = f.size + d → (wrap g us).size = (wrap f us).size + d := by
  induction us with
  | nil => intro f g d h; exact h
  | cons u us ih =>
    obtain ⟨p, i, ls⟩ := u
    intro f g d h
    refine ih _ _ d ?_
    simp only [size_app, size, h]
    omega

theorem step_child {h : Heap} {z : ALoc} {i : NodeInfo} {p : Ptr} {fuel : Nat}
    (he : Exact h z.forest) (hp : p ∉ z.forest.addrs) (hfuel : z.forest.size ≤ fuel) :
    ∃ h', Heap.insertChild fuel h (some z.ptr) i p = .ok (.success, h') ∧
      Exact h' ({ z with kids := z.kids.snoc p i } : ALoc).forest ∧
      ({ z with kids := z.kids.snoc p i } : ALoc).forest.size = z.forest.size + 1 ∧
      ({ z with kids := z.kids.snoc p i } : ALoc).forest.head = z.forest.head ∧
      ∀ x, x ∈ ({ z with kids := z.kids.snoc p i } : ALoc).forest.addrs ↔
        x = p ∨ x ∈ z.forest.addrs := by
  obtain ⟨⟨hnd, hl⟩, honly⟩ := he
  obtain ⟨h', e, hl', hfr⟩ := insertChild_linked (i := i) z.forest none none hl hnd z.ptr_mem hp hfuel
  have hnd' := nodup_addChild (t := z.ptr) (i := i) z.forest hnd hp
  have hmem := mem_addrs_addChild (p := p) (i := i) z.forest z.ptr_mem
  rw [addChild_forest z p i hnd] at hl' hnd' hmem
  refine ⟨h', e, ⟨⟨hnd', hl'⟩, ?_⟩, ?_, ?_, hmem⟩
  · intro q hq
    rw [hmem, not_or] at hq
    rw [hfr q hq.2 hq.1]
    exact honly q hq.2
  · refine size_wrap _ _ _ 1 ?_
    simp only [size_app, size, size_snoc]
    omega
  · rw [← addChild_forest z p i hnd, head_addChild]

end ALoc

/-- The addresses an operation allocates. -/
def TreeOp.allocs : TreeOp → Ptr → Ptr → List Ptr
  | .statement _, p, _ => [p]
  | .child _, p, _ => [p]
  | .openBlock _ _, p, q => [p, q]
  | .closeBlock _, _, _ => []
  | .update _, _, _ => []
  | .updateParent _, _, _ => []

open ALoc in
/-- One operation through pointers does what the functional operation does. -/
theorem step_follows {h : Heap} {z : ALoc} {op : TreeOp} {p q : Ptr} {fuel : Nat}
    (he : Exact h z.forest) (hfresh : ∀ x ∈ op.allocs p q, x ∉ z.forest.addrs)
    (hnd : (op.allocs p q).Nodup) (hfuel : z.forest.size + 2 ≤ fuel) :
    ∃ (h' : Heap) (z' : ALoc), HeapCursor.step fuel ⟨h, z.ptr⟩ op p q = .ok ⟨h', z'.ptr⟩ ∧ Exact h' z'.forest ∧
      z'.loc = z.loc.grow op ∧ z'.forest.size ≤ z.forest.size + 2 ∧
      z'.forest.head = z.forest.head ∧
      ∀ x, x ∈ z'.forest.addrs ↔ x ∈ op.allocs p q ∨ x ∈ z.forest.addrs := by
  cases op with
  | statement i =>
    obtain ⟨h', z', e, hz, _, he', hloc, hsz, _, _, _, hhd, hmem⟩ :=
      step_next (i := i) he (hfresh p (by simp [TreeOp.allocs]))
    subst hz
    exact ⟨h', z', e, he', hloc, by omega, hhd, by simpa [TreeOp.allocs] using hmem⟩
  | child i =>
    obtain ⟨h', e, he', hsz, hhd, hmem⟩ := step_child (i := i) (fuel := fuel) he
      (hfresh p (by simp [TreeOp.allocs])) (by omega)
    refine ⟨h', { z with kids := z.kids.snoc p i }, ?_, he', ?_, by omega, hhd,
      by simpa [TreeOp.allocs] using hmem⟩
    · simp only [HeapCursor.step, e, Res.bind_ok]
    · simp [ALoc.loc, Loc.grow, Loc.addChild, trees_snoc]
  | openBlock i m =>
    simp only [TreeOp.allocs, List.nodup_cons, List.mem_singleton] at hnd
    obtain ⟨h₁, z₁, e₁, hz₁, hk₁, he₁, hloc₁, hsz₁, hlefts, hinfo, hups, hhd₁, hmem₁⟩ :=
      step_next (i := i) he (hfresh p (by simp [TreeOp.allocs]))
    have hq : q ∉ z₁.forest.addrs := by
      rw [hmem₁, not_or]
      exact ⟨fun h => hnd.1 h.symm, hfresh q (by simp [TreeOp.allocs])⟩
    obtain ⟨h₂, e₂, he₂, hsz₂, hhd₂, hmem₂⟩ := step_child (i := m) (fuel := fuel) he₁ hq (by omega)
    have hread := read_cur he₂.holds.linked
    obtain ⟨prev, hread⟩ := hread
    have hz : (ALoc.mk q m nil nil ((z₁.ptr, z₁.info, z₁.lefts) :: z₁.ups)).forest =
        ({ z₁ with kids := z₁.kids.snoc q m } : ALoc).forest := by
      rw [hk₁]
      rfl
    refine ⟨h₂, { ptr := q, info := m, kids := nil, lefts := nil, ups := (z₁.ptr, z₁.info, z₁.lefts) :: z₁.ups }, ?_, ?_, ?_, ?_, ?_, ?_⟩
    · simp only [HeapCursor.step, e₁, Res.bind_ok]
      rw [← hz₁]
      simp only [e₂, Res.bind_ok, Heap.read_some hread, hk₁, snoc, head]
    · rw [hz]; exact he₂
    · rw [hlefts, hinfo, hups]
      simp [ALoc.loc, Loc.grow, Loc.openBlock, trees, trees_app]
    · rw [hz]; omega
    · rw [hz, hhd₂, hhd₁]
    · intro x
      rw [hz, hmem₂, hmem₁]
      simp only [TreeOp.allocs, List.mem_cons, List.not_mem_nil, or_false]
      grind
  | closeBlock fl =>
    obtain ⟨prev, hread⟩ := read_cur he.holds.linked
    obtain ⟨zp, zi, zk, zl, zu⟩ := z
    cases zu with
    | nil =>
      refine ⟨h, _, ?_, he, ?_, by omega, rfl, by simp [TreeOp.allocs]⟩
      · simp only [HeapCursor.step, Heap.read_some hread, Res.bind_ok, List.head?_nil, Option.map_none]
      · simp [ALoc.loc, Loc.grow, Loc.closeBlock, Loc.parent?]
    | cons u us =>
      obtain ⟨up, ui, ul⟩ := u
      have hf := forest_up ⟨zp, zi, zk, zl, (up, ui, ul) :: us⟩ rfl
      have hl := he.holds.linked
      rw [← hf] at hl
      obtain ⟨prev', hread'⟩ := read_cur hl
      dsimp only at hread'
      by_cases hfl : ui.flavor = fl
      · refine ⟨h, ⟨up, ui, zl.app (node zp zi zk nil), ul, us⟩, ?_, hf ▸ he, ?_, by rw [hf]; omega, by rw [hf], by simp [TreeOp.allocs, hf]⟩
        · simp only [HeapCursor.step, Heap.read_some hread, Res.bind_ok, List.head?_cons, Option.map_some,
            Heap.read_some hread', if_pos hfl]
        · simp [ALoc.loc, Loc.grow, Loc.closeBlock, Loc.parent?, Loc.info, hfl, trees_app, trees]
      · refine ⟨h, _, ?_, he, ?_, by omega, rfl, by simp [TreeOp.allocs]⟩
        · simp only [HeapCursor.step, Heap.read_some hread, Res.bind_ok, List.head?_cons, Option.map_some,
            Heap.read_some hread', if_neg hfl]
        · simp [ALoc.loc, Loc.grow, Loc.closeBlock, Loc.parent?, Loc.info, hfl]
  | update fn =>
    obtain ⟨prev, hread⟩ := read_cur he.holds.linked
    have hmf := mapInfo_forest z fn he.holds.distinct
    have hl := linked_mapInfo (fn := fn) hread z.forest none none he.holds.linked
    have ha := addrs_mapInfo z.ptr fn z.forest
    rw [hmf] at hl ha
    refine ⟨_, { z with info := fn z.info }, by
      simp only [HeapCursor.step, Heap.read_some hread, Res.bind_ok], ⟨⟨?_, hl⟩, ?_⟩, ?_, ?_, ?_, ?_⟩
    · rw [ha]; exact he.holds.distinct
    · intro x hx
      rw [ha] at hx
      rw [Heap.set_ne _ _ (by rintro rfl; exact hx z.ptr_mem)]
      exact he.only x hx
    · simp [ALoc.loc, Loc.grow, Loc.update]
    · rw [← length_addrs, ha, length_addrs]; omega
    · rw [← hmf, head_mapInfo]
    · simp [TreeOp.allocs, ha]
  | updateParent fn =>
    obtain ⟨prev, hread⟩ := read_cur he.holds.linked
    obtain ⟨zp, zi, zk, zl, zu⟩ := z
    cases zu with
    | nil =>
      refine ⟨h, _, ?_, he, ?_, by omega, rfl, by simp [TreeOp.allocs]⟩
      · simp only [HeapCursor.step, Heap.read_some hread, Res.bind_ok, List.head?_nil, Option.map_none]
      · simp [ALoc.loc, Loc.grow, Loc.updateParent]
    | cons u us =>
      obtain ⟨up, ui, ul⟩ := u
      have hf := forest_up ⟨zp, zi, zk, zl, (up, ui, ul) :: us⟩ rfl
      have hf' := forest_up ⟨zp, zi, zk, zl, (up, fn ui, ul) :: us⟩ rfl
      rw [← hf] at he ⊢
      obtain ⟨prev', hread'⟩ := read_cur he.holds.linked
      dsimp only at hread'
      have hmf := mapInfo_forest _ fn he.holds.distinct
      have hl := linked_mapInfo (fn := fn) hread' _ none none he.holds.linked
      have ha := addrs_mapInfo up fn (ALoc.mk up ui (zl.app (node zp zi zk nil)) ul us).forest
      dsimp only at hmf
      rw [hmf] at hl ha
      refine ⟨h.set up { (⟨ui, us.head?.map (·.1), prev', none, (zl.app (node zp zi zk nil)).head⟩ : HNode) with info := fn ui }, ⟨zp, zi, zk, zl, (up, fn ui, ul) :: us⟩, by
        simp only [HeapCursor.step, Heap.read_some hread, Res.bind_ok, List.head?_cons, Option.map_some,
          Heap.read_some hread'], ?_⟩
      rw [← hf']
      refine ⟨⟨⟨?_, hl⟩, ?_⟩, ?_, ?_, ?_, ?_⟩
      · rw [ha]; exact he.holds.distinct
      · intro x hx
        rw [ha] at hx
        rw [Heap.set_ne _ _ (by rintro rfl; exact hx (ALoc.ptr_mem ⟨x, ui, _, ul, us⟩))]
        exact he.only x hx
      · simp [ALoc.loc, Loc.grow, Loc.updateParent]
      · rw [← length_addrs, ha, length_addrs]; exact Nat.le_add_right _ _
      · rw [← hmf, head_mapInfo]
      · simp [TreeOp.allocs, ha]

end Selint
