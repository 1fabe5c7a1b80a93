import Verif.Spec.Heap
/-! # Linked trees on the heap: insertion and release -/

namespace Selint

namespace Heap

@[simp] theorem set_self (h : Heap) (p : Ptr) (n : HNode) : h.set p n p = some n := by
  simp [set]

theorem set_ne (h : Heap) {p q : Ptr} (n : HNode) (hne : q ≠ p) : h.set p n q = h q := by
  simp [set, hne]

@[simp] theorem release_self (h : Heap) (p : Ptr) : h.release p p = none := by simp [release]

theorem release_ne (h : Heap) {p q : Ptr} (hne : q ≠ p) : h.release p q = h q := by
  simp [release, hne]

theorem read_some {h : Heap} {p : Ptr} {n : HNode} (hp : h p = some n) : h.read p = .ok n := by
  simp [read, hp]

end Heap

namespace Spec.Forest

/-- The links hold for siblings below `par`, the first after `prev`. -/
def Linked (h : Heap) (par prev : Option Ptr) (f : Forest) : Prop :=
  ∀ c ∈ f.cells par prev, h c.1 = some c.2

theorem cells_fst (f : Forest) : ∀ (par prev : Option Ptr),
    (f.cells par prev).map (·.1) = f.addrs := by
  induction f with
  | nil => intros; rfl
  | node p i k r ihk ihr => intro par prev; simp [cells, addrs, ihk, ihr]

theorem mem_addrs_of_cell {f : Forest} {par prev : Option Ptr} {c : Ptr × HNode}
    (hc : c ∈ f.cells par prev) : c.1 ∈ f.addrs := by
  rw [← cells_fst f par prev]; exact List.mem_map.mpr ⟨c, hc, rfl⟩

theorem exists_cell {f : Forest} {p : Ptr} (par prev : Option Ptr) (hp : p ∈ f.addrs) :
    ∃ n, (p, n) ∈ f.cells par prev := by
  rw [← cells_fst f par prev] at hp
  obtain ⟨⟨q, n⟩, hc, rfl⟩ := List.mem_map.mp hp
  exact ⟨n, hc⟩

theorem Linked.congr {h h' : Heap} {par prev : Option Ptr} {f : Forest}
    (hl : Linked h par prev f) (heq : ∀ q ∈ f.addrs, h' q = h q) : Linked h' par prev f := by
  intro c hc
  rw [heq c.1 (mem_addrs_of_cell hc)]
  exact hl c hc

theorem linked_nil (h : Heap) (par prev : Option Ptr) : Linked h par prev nil := by
  intro c hc; simp [cells] at hc

theorem linked_node {h : Heap} {par prev : Option Ptr} {p : Ptr} {i : NodeInfo} {k r : Forest} :
    Linked h par prev (node p i k r) ↔
      h p = some { info := i, parent := par, prev := prev, next := r.head, firstChild := k.head } ∧
      Linked h (some p) none k ∧ Linked h par (some p) r := by
  simp only [Linked, cells, List.mem_cons, List.mem_append]
  constructor
  · intro hl
    exact ⟨hl _ (.inl rfl), fun c hc => hl c (.inr (.inl hc)), fun c hc => hl c (.inr (.inr hc))⟩
  · rintro ⟨h1, h2, h3⟩ c (rfl | hc | hc)
    · exact h1
    · exact h2 c hc
    · exact h3 c hc

theorem nodup_node {p : Ptr} {i : NodeInfo} {k r : Forest} :
    (node p i k r).addrs.Nodup ↔
      p ∉ k.addrs ∧ p ∉ r.addrs ∧ k.addrs.Nodup ∧ r.addrs.Nodup ∧
      ∀ q ∈ k.addrs, q ∉ r.addrs := by
  simp only [addrs, List.nodup_cons, List.mem_append, List.nodup_append]
  constructor
  · rintro ⟨h1, h2, h3, h4⟩
    refine ⟨fun h => h1 (.inl h), fun h => h1 (.inr h), h2, h3, fun q hq hr => h4 q hq q hr rfl⟩
  · rintro ⟨h1, h2, h3, h4, h5⟩
    refine ⟨fun h => h.elim h1 h2, h3, h4, ?_⟩
    rintro a ha b hb rfl
    exact h5 a ha hb

/-- The address of the last sibling. -/
def lastPtr : Forest → Option Ptr
  | nil => none
  | node p _ _ nil => some p
  | node _ _ _ (node p i k r) => (node p i k r).lastPtr

theorem lastPtr_mem {f : Forest} {q : Ptr} (h : f.lastPtr = some q) : q ∈ f.addrs := by
  fun_induction lastPtr f with
  | case1 => cases h
  | case2 p i k => simp_all [addrs]
  | case3 p i k p' i' k' r ih => simp only [addrs, List.mem_cons, List.mem_append]; right; right; exact (by simpa [addrs] using ih h)

theorem length_addrs (f : Forest) : f.addrs.length = f.size := by
  induction f with
  | nil => rfl
  | node p i k r ihk ihr => simp [addrs, size, ihk, ihr]

theorem lastSibling_eq (h : Heap) (f : Forest) : ∀ (par prev : Option Ptr) (fuel : Nat) (p : Ptr),
    Linked h par prev f → f.head = some p → f.size ≤ fuel →
    ∃ q, f.lastPtr = some q ∧ Heap.lastSibling fuel h p = .ok q := by
  induction f with
  | nil => intro _ _ _ _ _ hh; cases hh
  | node q i k r _ ihr =>
    intro par prev fuel p hl hh hf
    rw [linked_node] at hl
    cases hh
    simp only [size] at hf
    obtain ⟨fuel, rfl⟩ : ∃ m, fuel = m + 1 := ⟨fuel - 1, by omega⟩
    cases r with
    | nil =>
      refine ⟨q, rfl, ?_⟩
      simp only [Heap.lastSibling, Heap.read_some hl.1, Res.bind_ok, head]
    | node q' i' k' r' =>
      obtain ⟨x, hx, hx'⟩ := ihr par (some q) fuel q' hl.2.2 rfl (by omega)
      refine ⟨x, hx, ?_⟩
      simp only [Heap.lastSibling, Heap.read_some hl.1, Res.bind_ok, head]
      exact hx'

theorem head_snoc (f : Forest) (p : Ptr) (i : NodeInfo) (hf : f ≠ nil) :
    (f.snoc p i).head = f.head := by
  cases f with
  | nil => exact absurd rfl hf
  | node => rfl

/-- Links after a new sibling has been hung after the last one. -/
theorem linked_snoc {h h' : Heap} {p : Ptr} {i : NodeInfo} (f : Forest) :
    ∀ (par prev : Option Ptr) (a : Ptr) (an : HNode),
    Linked h par prev f → f.addrs.Nodup → p ∉ f.addrs →
    f.lastPtr = some a → h a = some an →
    h' a = some { an with next := some p } →
    h' p = some { info := i, parent := par, prev := some a, next := none, firstChild := none } →
    (∀ q, q ≠ a → q ≠ p → h' q = h q) →
    Linked h' par prev (f.snoc p i) := by
  induction f with
  | nil => intro _ _ _ _ _ _ _ hh; cases hh
  | node q j k r _ ihr =>
    intro par prev a an hl hnd hp hlast han ha' hp' hfr
    rw [linked_node] at hl
    rw [nodup_node] at hnd
    simp only [addrs, List.mem_cons, List.mem_append, not_or] at hp
    obtain ⟨hpq, hpk, hpr⟩ := hp
    cases r with
    | nil =>
      simp only [lastPtr, Option.some.injEq] at hlast
      subst hlast
      rw [hl.1] at han
      cases han
      simp only [snoc]
      rw [linked_node, linked_node]
      refine ⟨ha', ?_, hp', linked_nil _ _ _, linked_nil _ _ _⟩
      refine hl.2.1.congr fun x hx => hfr x ?_ ?_
      · rintro rfl; exact hnd.1 hx
      · rintro rfl; exact hpk hx
    | node q' j' k' r' =>
      have hmem := lastPtr_mem (f := node q' j' k' r') hlast
      rw [snoc, linked_node]
      refine ⟨?_, ?_, ?_⟩
      · rw [hfr q, hl.1]
        · rw [head_snoc _ _ _ (by simp)]
        · rintro rfl; exact hnd.2.1 hmem
        · rintro rfl; exact hpq rfl
      · refine hl.2.1.congr fun x hx => hfr x ?_ ?_
        · rintro rfl; exact hnd.2.2.2.2 _ hx hmem
        · rintro rfl; exact hpk hx
      · exact ihr par (some q) a an hl.2.2 hnd.2.2.2.1 hpr hlast han ha' hp' hfr

theorem addrs_snoc (f : Forest) (p : Ptr) (i : NodeInfo) : (f.snoc p i).addrs = f.addrs ++ [p] := by
  induction f with
  | nil => rfl
  | node q j k r _ ih => simp [snoc, addrs, ih]

theorem addChild_of_not_mem {t p : Ptr} {i : NodeInfo} (f : Forest) (ht : t ∉ f.addrs) :
    f.addChild t p i = f := by
  induction f with
  | nil => rfl
  | node q j k r ihk ihr =>
    simp only [addrs, List.mem_cons, List.mem_append, not_or] at ht
    rw [addChild, if_neg (fun h => ht.1 h.symm), ihk ht.2.1, ihr ht.2.2]

theorem addNext_of_not_mem {t p : Ptr} {i : NodeInfo} (f : Forest) (ht : t ∉ f.addrs) :
    f.addNext t p i = f := by
  induction f with
  | nil => rfl
  | node q j k r ihk ihr =>
    simp only [addrs, List.mem_cons, List.mem_append, not_or] at ht
    rw [addNext, if_neg (fun h => ht.1 h.symm), ihk ht.2.1, ihr ht.2.2]

theorem head_addChild (t p : Ptr) (i : NodeInfo) (f : Forest) :
    (f.addChild t p i).head = f.head := by
  cases f with
  | nil => rfl
  | node q j k r => rw [addChild]; split <;> rfl

theorem head_addNext (t p : Ptr) (i : NodeInfo) (f : Forest) :
    (f.addNext t p i).head = f.head := by
  cases f with
  | nil => rfl
  | node q j k r => rw [addNext]; split <;> rfl

theorem mem_addrs_addChild {t p : Ptr} {i : NodeInfo} (f : Forest) (ht : t ∈ f.addrs) (x : Ptr) :
    x ∈ (f.addChild t p i).addrs ↔ x = p ∨ x ∈ f.addrs := by
  induction f with
  | nil => simp [addrs] at ht
  | node q j k r ihk ihr =>
    rw [addChild]
    by_cases hq : q = t
    · rw [if_pos hq]; simp only [addrs, addrs_snoc, List.mem_cons, List.mem_append]; grind
    · rw [if_neg hq]
      simp only [addrs, List.mem_cons, List.mem_append] at ht ⊢
      by_cases hk : t ∈ k.addrs
      · have := ihk hk
        by_cases hr : t ∈ r.addrs
        · have := ihr hr; grind
        · rw [addChild_of_not_mem r hr]; grind
      · by_cases hr : t ∈ r.addrs
        · rw [addChild_of_not_mem k hk]; have := ihr hr; grind
        · grind

theorem nodup_addChild {t p : Ptr} {i : NodeInfo} (f : Forest) (hnd : f.addrs.Nodup)
    (hp : p ∉ f.addrs) : (f.addChild t p i).addrs.Nodup := by
  induction f with
  | nil => simp [addChild, addrs]
  | node q j k r ihk ihr =>
    rw [nodup_node] at hnd
    simp only [addrs, List.mem_cons, List.mem_append, not_or] at hp
    rw [addChild]
    by_cases hq : q = t
    · rw [if_pos hq, nodup_node]
      simp only [addrs_snoc, List.mem_append, List.mem_cons, List.not_mem_nil, or_false,
        List.nodup_append]
      grind
    · rw [if_neg hq, nodup_node]
      by_cases hk : t ∈ k.addrs
      · have hr : t ∉ r.addrs := hnd.2.2.2.2 t hk
        rw [addChild_of_not_mem r hr]
        have := mem_addrs_addChild (p := p) (i := i) k hk
        have := ihk hnd.2.2.1 hp.2.1
        grind
      · rw [addChild_of_not_mem k hk]
        by_cases hr : t ∈ r.addrs
        · have := mem_addrs_addChild (p := p) (i := i) r hr
          have := ihr hnd.2.2.2.1 hp.2.2
          grind
        · rw [addChild_of_not_mem r hr]; grind

theorem mem_addrs_addNext {t p : Ptr} {i : NodeInfo} (f : Forest) (ht : t ∈ f.addrs) (x : Ptr) :
    x ∈ (f.addNext t p i).addrs ↔ x = p ∨ x ∈ f.addrs := by
  induction f with
  | nil => simp [addrs] at ht
  | node q j k r ihk ihr =>
    rw [addNext]
    by_cases hq : q = t
    · rw [if_pos hq]; simp only [addrs, List.mem_cons, List.mem_append, List.not_mem_nil]; grind
    · rw [if_neg hq]
      simp only [addrs, List.mem_cons, List.mem_append] at ht ⊢
      by_cases hk : t ∈ k.addrs
      · have := ihk hk
        by_cases hr : t ∈ r.addrs
        · have := ihr hr; grind
        · rw [addNext_of_not_mem r hr]; grind
      · by_cases hr : t ∈ r.addrs
        · rw [addNext_of_not_mem k hk]; have := ihr hr; grind
        · grind

theorem nodup_addNext {t p : Ptr} {i : NodeInfo} (f : Forest) (hnd : f.addrs.Nodup)
    (hp : p ∉ f.addrs) : (f.addNext t p i).addrs.Nodup := by
  induction f with
  | nil => simp [addNext, addrs]
  | node q j k r ihk ihr =>
    rw [nodup_node] at hnd
    simp only [addrs, List.mem_cons, List.mem_append, not_or] at hp
    rw [addNext]
    by_cases hq : q = t
    · rw [if_pos hq, nodup_node, nodup_node]
      simp only [addrs, List.mem_append, List.mem_cons, List.not_mem_nil]
      grind
    · rw [if_neg hq, nodup_node]
      by_cases hk : t ∈ k.addrs
      · have hr : t ∉ r.addrs := hnd.2.2.2.2 t hk
        rw [addNext_of_not_mem r hr]
        have := mem_addrs_addNext (p := p) (i := i) k hk
        have := ihk hnd.2.2.1 hp.2.1
        grind
      · rw [addNext_of_not_mem k hk]
        by_cases hr : t ∈ r.addrs
        · have := mem_addrs_addNext (p := p) (i := i) r hr
          have := ihr hnd.2.2.2.1 hp.2.2
          grind
        · rw [addNext_of_not_mem r hr]; grind

/-- What the insertion of a child does, as a change of the heap. -/
theorem insertChild_linked {h : Heap} {t p : Ptr} {i : NodeInfo} {fuel : Nat} (f : Forest) :
    ∀ (par prev : Option Ptr), Linked h par prev f → f.addrs.Nodup → t ∈ f.addrs →
    p ∉ f.addrs → f.size ≤ fuel →
    ∃ h', Heap.insertChild fuel h (some t) i p = .ok (.success, h') ∧
      Linked h' par prev (f.addChild t p i) ∧ ∀ q, q ∉ f.addrs → q ≠ p → h' q = h q := by
  induction f with
  | nil => intro _ _ _ _ ht; simp [addrs] at ht
  | node q j k r ihk ihr =>
    intro par prev hl hnd ht hp hfuel
    rw [linked_node] at hl
    rw [nodup_node] at hnd
    simp only [addrs, List.mem_cons, List.mem_append, not_or] at hp ht
    simp only [size] at hfuel
    obtain ⟨hpq, hpk, hpr⟩ := hp
    by_cases hq : q = t
    · subst hq
      rw [addChild, if_pos rfl]
      cases k with
      | nil =>
        refine ⟨_, by simp only [Heap.insertChild, Heap.read_some hl.1, Res.bind_ok, head]; rfl, ?_, ?_⟩
        · rw [snoc, linked_node, linked_node]
          refine ⟨?_, ⟨?_, linked_nil _ _ _, linked_nil _ _ _⟩, ?_⟩
          · rw [Heap.set_ne _ _ (fun h => hpq h.symm), Heap.set_self]; rfl
          · rw [Heap.set_self]; rfl
          · refine hl.2.2.congr fun x hx => ?_
            rw [Heap.set_ne _ _ (by rintro rfl; exact hpr hx),
              Heap.set_ne _ _ (by rintro rfl; exact hnd.2.1 hx)]
        · intro x hx hxp
          simp only [addrs, List.mem_cons, not_or] at hx
          rw [Heap.set_ne _ _ hxp, Heap.set_ne _ _ hx.1]
      | node c ci ck cr =>
        obtain ⟨a, ha, hla⟩ := lastSibling_eq h (node c ci ck cr) (some q) none fuel c hl.2.1 rfl
          (by omega)
        have hak := lastPtr_mem ha
        obtain ⟨an, hcell⟩ := exists_cell (some q) none hak
        have han := hl.2.1 _ hcell
        dsimp only at han
        have hap : a ≠ p := by rintro rfl; exact hpk hak
        refine ⟨_, by
          simp only [Heap.insertChild, Heap.read_some hl.1, Res.bind_ok, head, hla,
            Heap.read_some han]; rfl, ?_, ?_⟩
        · rw [linked_node]
          refine ⟨?_, ?_, ?_⟩
          · rw [Heap.set_ne _ _ (fun h => hpq h.symm),
              Heap.set_ne _ _ (by rintro rfl; exact hnd.1 hak), hl.1]
            rfl
          · refine linked_snoc (h := h) _ (some q) none a an hl.2.1 hnd.2.2.1 hpk ha han ?_ ?_ ?_
            · rw [Heap.set_ne _ _ hap, Heap.set_self]
            · rw [Heap.set_self]
            · intro x hx1 hx2
              rw [Heap.set_ne _ _ hx2, Heap.set_ne _ _ hx1]
          · refine hl.2.2.congr fun x hx => ?_
            rw [Heap.set_ne _ _ (by rintro rfl; exact hpr hx),
              Heap.set_ne _ _ (by rintro rfl; exact hnd.2.2.2.2 _ hak hx)]
        · intro x hx hxp
          rw [Heap.set_ne _ _ hxp, Heap.set_ne _ _ ?_]
          rintro rfl
          apply hx
          simp only [addrs, List.mem_cons, List.mem_append] at hak ⊢
          exact .inr (.inl hak)
    · rw [addChild, if_neg hq]
      rcases ht with rfl | ht | ht
      · exact absurd rfl hq
      · obtain ⟨h', he, hl', hfr⟩ := ihk (some q) none hl.2.1 hnd.2.2.1 ht hpk (by omega)
        rw [addChild_of_not_mem r (hnd.2.2.2.2 t ht)]
        refine ⟨h', he, ?_, ?_⟩
        · rw [linked_node, head_addChild]
          refine ⟨?_, hl', ?_⟩
          · rw [hfr q hnd.1 (fun h => hpq h.symm), hl.1]
          · refine hl.2.2.congr fun x hx => hfr x (fun hk => hnd.2.2.2.2 x hk hx) ?_
            rintro rfl; exact hpr hx
        · intro x hx hxp
          simp only [addrs, List.mem_cons, List.mem_append, not_or] at hx
          exact hfr x hx.2.1 hxp
      · obtain ⟨h', he, hl', hfr⟩ := ihr par (some q) hl.2.2 hnd.2.2.2.1 ht hpr (by omega)
        rw [addChild_of_not_mem k (fun hk => hnd.2.2.2.2 t hk ht)]
        refine ⟨h', he, ?_, ?_⟩
        · rw [linked_node, head_addChild]
          refine ⟨?_, ?_, hl'⟩
          · rw [hfr q hnd.2.1 (fun h => hpq h.symm), hl.1]
          · refine hl.2.1.congr fun x hx => hfr x (hnd.2.2.2.2 x hx) ?_
            rintro rfl; exact hpk hx
        · intro x hx hxp
          simp only [addrs, List.mem_cons, List.mem_append, not_or] at hx
          exact hfr x hx.2.2 hxp

theorem lasts_mem {f : Forest} {q : Ptr} (h : q ∈ f.lasts) : q ∈ f.addrs := by
  fun_induction lasts f with
  | case1 => simp at h
  | case2 p i k ih =>
    simp only [List.mem_cons] at h
    simp only [addrs, List.mem_cons, List.mem_append]
    grind
  | case3 p i k p' i' k' r ih1 ih2 =>
    simp only [List.mem_append] at h
    have : (node p' i' k' r).addrs = p' :: (k'.addrs ++ r.addrs) := rfl
    simp only [addrs, List.mem_cons, List.mem_append] at *
    grind

theorem mem_lasts_node {p t : Ptr} {i : NodeInfo} {k r : Forest} :
    t ∈ (node p i k r).lasts ↔ (t = p ∧ r = nil) ∨ t ∈ k.lasts ∨ t ∈ r.lasts := by
  cases r with
  | nil => simp [lasts]
  | node => simp [lasts]

theorem insertNext_linked {h : Heap} {t p : Ptr} {i : NodeInfo} (f : Forest) :
    ∀ (par prev : Option Ptr), Linked h par prev f → f.addrs.Nodup → t ∈ f.lasts →
    p ∉ f.addrs →
    ∃ h', Heap.insertNext h (some t) i p = .ok (.success, h') ∧
      Linked h' par prev (f.addNext t p i) ∧ ∀ q, q ∉ f.addrs → q ≠ p → h' q = h q := by
  induction f with
  | nil => intro _ _ _ _ ht; simp [lasts] at ht
  | node q j k r ihk ihr =>
    intro par prev hl hnd ht hp
    rw [linked_node] at hl
    rw [nodup_node] at hnd
    simp only [addrs, List.mem_cons, List.mem_append, not_or] at hp
    rw [mem_lasts_node] at ht
    obtain ⟨hpq, hpk, hpr⟩ := hp
    by_cases hq : q = t
    · subst hq
      have hr : r = nil := by
        rcases ht with ht | ht | ht
        · exact ht.2
        · exact absurd (lasts_mem ht) hnd.1
        · exact absurd (lasts_mem ht) hnd.2.1
      subst hr
      rw [addNext, if_pos rfl]
      refine ⟨_, by simp only [Heap.insertNext, Heap.read_some hl.1, Res.bind_ok]; rfl, ?_, ?_⟩
      · rw [linked_node, linked_node]
        refine ⟨?_, ?_, ?_, linked_nil _ _ _, linked_nil _ _ _⟩
        · rw [Heap.set_ne _ _ (fun h => hpq h.symm), Heap.set_self]; rfl
        · refine hl.2.1.congr fun x hx => ?_
          rw [Heap.set_ne _ _ (by rintro rfl; exact hpk hx),
            Heap.set_ne _ _ (by rintro rfl; exact hnd.1 hx)]
        · rw [Heap.set_self]; rfl
      · intro x hx hxp
        simp only [addrs, List.mem_cons, not_or] at hx
        rw [Heap.set_ne _ _ hxp, Heap.set_ne _ _ hx.1]
    · rw [addNext, if_neg hq]
      rcases ht with ⟨rfl, _⟩ | ht | ht
      · exact absurd rfl hq
      · obtain ⟨h', he, hl', hfr⟩ := ihk (some q) none hl.2.1 hnd.2.2.1 ht hpk
        rw [addNext_of_not_mem r (hnd.2.2.2.2 t (lasts_mem ht))]
        refine ⟨h', he, ?_, ?_⟩
        · rw [linked_node, head_addNext]
          refine ⟨?_, hl', ?_⟩
          · rw [hfr q hnd.1 (fun h => hpq h.symm), hl.1]
          · refine hl.2.2.congr fun x hx => hfr x (fun hk => hnd.2.2.2.2 x hk hx) ?_
            rintro rfl; exact hpr hx
        · intro x hx hxp
          simp only [addrs, List.mem_cons, List.mem_append, not_or] at hx
          exact hfr x hx.2.1 hxp
      · obtain ⟨h', he, hl', hfr⟩ := ihr par (some q) hl.2.2 hnd.2.2.2.1 ht hpr
        rw [addNext_of_not_mem k (fun hk => hnd.2.2.2.2 t hk (lasts_mem ht))]
        refine ⟨h', he, ?_, ?_⟩
        · rw [linked_node, head_addNext]
          refine ⟨?_, ?_, hl'⟩
          · rw [hfr q hnd.2.1 (fun h => hpq h.symm), hl.1]
          · refine hl.2.1.congr fun x hx => hfr x (hnd.2.2.2.2 x hx) ?_
            rintro rfl; exact hpk hx
        · intro x hx hxp
          simp only [addrs, List.mem_cons, List.mem_append, not_or] at hx
          exact hfr x hx.2.2 hxp

/-- The order in which `free_policy_node` frees: children, then successors, then the node. -/
def postorder : Forest → List Ptr
  | nil => []
  | node p _ k r => k.postorder ++ r.postorder ++ [p]

theorem postorder_perm (f : Forest) : f.postorder.Perm f.addrs := by
  induction f with
  | nil => exact .nil
  | node p i k r ihk ihr =>
    refine List.perm_append_comm.trans ?_
    exact .cons p (ihk.append ihr)

theorem freeNode_linked (f : Forest) : ∀ (h : Heap) (par prev : Option Ptr) (fuel : Nat),
    Linked h par prev f → f.addrs.Nodup → f.size ≤ fuel →
    ∃ h', Heap.freeNode fuel h f.head = .ok (h', f.postorder) ∧
      (∀ q ∈ f.addrs, h' q = none) ∧ ∀ q, q ∉ f.addrs → h' q = h q := by
  induction f with
  | nil =>
    intro h par prev fuel _ _ _
    exact ⟨h, by cases fuel <;> rfl, by simp [addrs], fun _ _ => rfl⟩
  | node p i k r ihk ihr =>
    intro h par prev fuel hl hnd hfuel
    rw [linked_node] at hl
    rw [nodup_node] at hnd
    simp only [size] at hfuel
    obtain ⟨fuel, rfl⟩ : ∃ m, fuel = m + 1 := ⟨fuel - 1, by omega⟩
    obtain ⟨h₁, e₁, d₁, fr₁⟩ := ihk h (some p) none fuel hl.2.1 hnd.2.2.1 (by omega)
    have hp₁ := (fr₁ p hnd.1).trans hl.1
    obtain ⟨h₂, e₂, d₂, fr₂⟩ := ihr (h₁.set p
        { info := i, parent := par, prev := prev, next := r.head, firstChild := none })
      par (some p) fuel
      (hl.2.2.congr fun x hx => by
        rw [Heap.set_ne _ _ (by rintro rfl; exact hnd.2.1 hx)]
        exact fr₁ x (fun hk => hnd.2.2.2.2 x hk hx)) hnd.2.2.2.1 (by omega)
    have hp₂ := (fr₂ p hnd.2.1).trans (Heap.set_self _ _ _)
    refine ⟨(h₂.set p { info := i, parent := par, prev := none, next := none, firstChild := none }).release p, ?_, ?_, ?_⟩
    · show Heap.freeNode (fuel + 1) h (some p) = _
      simp only [Heap.freeNode, Heap.read_some hl.1, Res.bind_ok, e₁, Heap.read_some hp₁, e₂,
        Heap.read_some hp₂]
      rfl
    · intro q hq
      simp only [addrs, List.mem_cons, List.mem_append] at hq
      by_cases hqp : q = p
      · subst hqp; exact Heap.release_self _ _
      rw [Heap.release_ne _ hqp, Heap.set_ne _ _ hqp]
      rcases hq with hq | hq | hq
      · exact absurd hq hqp
      · rw [fr₂ q (hnd.2.2.2.2 q hq), Heap.set_ne _ _ hqp]; exact d₁ q hq
      · exact d₂ q hq
    · intro q hq
      simp only [addrs, List.mem_cons, List.mem_append, not_or] at hq
      rw [Heap.release_ne _ hq.1, Heap.set_ne _ _ hq.1, fr₂ q hq.2.2, Heap.set_ne _ _ hq.1,
        fr₁ q hq.2.1]

end Spec.Forest

end Selint
