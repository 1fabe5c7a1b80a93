import Verif.Lemmas.Heap
/-! # Traversal of a linked tree -/

namespace Selint

namespace Spec.Forest

/-- Climbing from any node below `par` ends with `u`. -/
def UpRes (h : Heap) (par : Option Ptr) (d : Nat) (u : Option Ptr) : Prop :=
  ∀ (n : HNode) (fuel : Nat), n.parent = par → d < fuel → Heap.climbNext fuel h n = .ok u

theorem upRes_none (h : Heap) : UpRes h none 0 none := by
  intro n fuel hn hf
  obtain ⟨fuel, rfl⟩ : ∃ m, fuel = m + 1 := ⟨fuel - 1, by omega⟩
  simp [Heap.climbNext, Heap.climbLoop, hn]

theorem upRes_next {h : Heap} {q r : Ptr} {pn : HNode} (hq : h q = some pn)
    (hr : pn.next = some r) : UpRes h (some q) 0 (some r) := by
  intro n fuel hn hf
  obtain ⟨fuel, rfl⟩ : ∃ m, fuel = m + 1 := ⟨fuel - 1, by omega⟩
  simp [Heap.climbNext, Heap.climbLoop, hn, Heap.read_some hq, hr]

theorem upRes_up {h : Heap} {q : Ptr} {pn : HNode} {d : Nat} {u : Option Ptr} (hq : h q = some pn)
    (hr : pn.next = none) (hu : UpRes h pn.parent d u) : UpRes h (some q) (d + 1) u := by
  intro n fuel hn hf
  obtain ⟨fuel, rfl⟩ : ∃ m, fuel = m + 1 := ⟨fuel - 1, by omega⟩
  have := hu pn fuel rfl (by omega)
  simp only [Heap.climbNext] at this ⊢
  simp only [Heap.climbLoop, hn, Heap.read_some hq, hr, Res.bind_ok]
  exact this

/-- `dfs_next` leads from each address of the list to the following one, and from the last
one to `u`. -/
def Steps (fuel : Nat) (h : Heap) : List Ptr → Option Ptr → Prop
  | [], _ => True
  | p :: l, u => Heap.dfsNext fuel h p = .ok (match l with | [] => u | q :: _ => some q) ∧
      Steps fuel h l u

theorem steps_append {fuel : Nat} {h : Heap} {u : Option Ptr} (a b : List Ptr)
    (ha : Steps fuel h a (match b with | [] => u | q :: _ => some q)) (hb : Steps fuel h b u) :
    Steps fuel h (a ++ b) u := by
  induction a with
  | nil => exact hb
  | cons p a ih =>
    refine ⟨?_, ih ha.2⟩
    rw [ha.1]
    cases a with
    | nil => rfl
    | cons => rfl

theorem steps_linked {h : Heap} {fuel : Nat} (f : Forest) : ∀ (par prev : Option Ptr) (d : Nat)
    (u : Option Ptr), Linked h par prev f → UpRes h par d u → f.size + d ≤ fuel →
    Steps fuel h f.addrs u := by
  induction f with
  | nil => intros; trivial
  | node p i k r ihk ihr =>
    intro par prev d u hl hu hf
    rw [linked_node] at hl
    simp only [size] at hf
    have hr : Steps fuel h r.addrs u := ihr par (some p) d u hl.2.2 hu (by omega)
    have hk : Steps fuel h k.addrs (match r.addrs with | [] => u | q :: _ => some q) := by
      cases r with
      | nil => exact ihk (some p) none (d + 1) u hl.2.1 (upRes_up hl.1 rfl hu) (by omega)
      | node q j k' r' =>
        exact ihk (some p) none 0 (some q) hl.2.1 (upRes_next hl.1 rfl) (by omega)
    refine ⟨?_, steps_append _ _ hk hr⟩
    simp only [Heap.dfsNext, Heap.read_some hl.1, Res.bind_ok]
    cases k with
    | node q j k' r' => rfl
    | nil =>
      cases r with
      | node q j k' r' => rfl
      | nil => exact hu _ fuel rfl (by omega)

theorem walk_steps {h : Heap} {fuel : Nat} (l : List Ptr) : ∀ (steps : Nat), Steps fuel h l none →
    l.length ≤ steps → Heap.walk steps fuel h l.head? = .ok l := by
  induction l with
  | nil => intro steps _ _; cases steps <;> rfl
  | cons p l ih =>
    intro steps hs hn
    simp only [List.length_cons] at hn
    obtain ⟨steps, rfl⟩ : ∃ m, steps = m + 1 := ⟨steps - 1, by omega⟩
    have := ih steps hs.2 (by omega)
    have h1 := hs.1
    simp only [List.head?_cons, Heap.walk, h1, Res.bind_ok]
    cases l with
    | nil => cases steps <;> rfl
    | cons q l =>
      simp only [List.head?_cons] at this
      dsimp only
      rw [this]
      rfl

theorem infos_linked {h : Heap} (f : Forest) : ∀ (par prev : Option Ptr), Linked h par prev f →
    f.addrs.map (fun p => (h p).map (·.info)) = (Tree.preorderList f.trees).map some := by
  induction f with
  | nil => intros; rfl
  | node p i k r ihk ihr =>
    intro par prev hl
    rw [linked_node] at hl
    simp [addrs, trees, Tree.preorderList, Tree.preorder, hl.1, ihk _ _ hl.2.1, ihr _ _ hl.2.2]

theorem head_addrs (f : Forest) : f.addrs.head? = f.head := by
  cases f <;> rfl

end Spec.Forest

end Selint
