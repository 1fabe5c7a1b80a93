import Verif.Lemmas.HeapParse
import Verif.Lemmas.HeapWalk
/-! # C10 and C11: building and releasing the policy tree -/

namespace Selint

open Spec

/-- A statement node, for the examples. -/
def heapInfo (line : Nat) : NodeInfo := ⟨.plain .semicolon none, none, line⟩

/-- A picture with a top-level node at 10, its children 11 and 12, and its successor 20. -/
def heapForest : Forest :=
  .node 10 (heapInfo 1) (.node 11 (heapInfo 2) .nil (.node 12 (heapInfo 3) .nil .nil))
    (.node 20 (heapInfo 4) .nil .nil)

/-- A heap holding that picture. -/
def heapExample : Heap := fun p =>
  if p = 10 then some ⟨heapInfo 1, none, none, some 20, some 11⟩
  else if p = 11 then some ⟨heapInfo 2, some 10, none, some 12, none⟩
  else if p = 12 then some ⟨heapInfo 3, some 10, some 11, none, none⟩
  else if p = 20 then some ⟨heapInfo 4, none, some 10, none, none⟩
  else none

theorem heapExample_holds : Holds heapExample heapForest := by
  refine ⟨by decide, ?_⟩
  intro c hc
  simp only [heapForest, Forest.cells, Forest.head, List.mem_cons, List.mem_append,
    List.not_mem_nil, or_false, false_or] at hc
  rcases hc with rfl | (rfl | rfl) | rfl <;> rfl

/-- **C10**, children: in a heap that holds a well-formed tree, `insert_policy_node_child`
leaves a well-formed tree with the new node as the last child of the given node and
everything else as it was; no other allocated object changes. -/
theorem C10_child {h : Heap} {f : Forest} {parent fresh : Ptr} {info : NodeInfo} {fuel : Nat}
    (hh : Holds h f) (hp : parent ∈ f.addrs) (hfresh : h fresh = none) (hfuel : f.size ≤ fuel) :
    ∃ h', h.insertChild fuel (some parent) info fresh = .ok (.success, h') ∧
      Holds h' (f.addChild parent fresh info) ∧
      ∀ q, q ∉ f.addrs → q ≠ fresh → h' q = h q := by
  have hnew : fresh ∉ f.addrs := by
    intro hm
    obtain ⟨n, hc⟩ := Forest.exists_cell none none hm
    rw [hh.linked _ hc] at hfresh
    cases hfresh
  obtain ⟨h', e, hl, hfr⟩ :=
    Forest.insertChild_linked (i := info) f none none hh.linked hh.distinct hp hnew hfuel
  exact ⟨h', e, ⟨Forest.nodup_addChild f hh.distinct hnew, hl⟩, hfr⟩

example : ∃ h', heapExample.insertChild 9 (some 10) (heapInfo 7) 30 = .ok (.success, h') ∧
    Holds h' (.node 10 (heapInfo 1) (.node 11 (heapInfo 2) .nil (.node 12 (heapInfo 3) .nil
      (.node 30 (heapInfo 7) .nil .nil))) (.node 20 (heapInfo 4) .nil .nil)) := by
  obtain ⟨h', e, hh, _⟩ := C10_child (info := heapInfo 7) (fresh := 30) (fuel := 9)
    heapExample_holds (parent := 10) (by decide) rfl (by decide)
  exact ⟨h', e, hh⟩

/-- **C10**, successors: `insert_policy_node_next` after a node that has no successor
leaves a well-formed tree with the new node directly after it, under the same parent. -/
theorem C10_next {h : Heap} {f : Forest} {prev fresh : Ptr} {info : NodeInfo}
    (hh : Holds h f) (hp : prev ∈ f.lasts) (hfresh : h fresh = none) :
    ∃ h', h.insertNext (some prev) info fresh = .ok (.success, h') ∧
      Holds h' (f.addNext prev fresh info) ∧
      ∀ q, q ∉ f.addrs → q ≠ fresh → h' q = h q := by
  have hnew : fresh ∉ f.addrs := by
    intro hm
    obtain ⟨n, hc⟩ := Forest.exists_cell none none hm
    rw [hh.linked _ hc] at hfresh
    cases hfresh
  obtain ⟨h', e, hl, hfr⟩ :=
    Forest.insertNext_linked (i := info) f none none hh.linked hh.distinct hp hnew
  exact ⟨h', e, ⟨Forest.nodup_addNext f hh.distinct hnew, hl⟩, hfr⟩

example : ∃ h', heapExample.insertNext (some 12) (heapInfo 7) 30 = .ok (.success, h') ∧
    Holds h' (.node 10 (heapInfo 1) (.node 11 (heapInfo 2) .nil (.node 12 (heapInfo 3) .nil
      (.node 30 (heapInfo 7) .nil .nil))) (.node 20 (heapInfo 4) .nil .nil)) := by
  obtain ⟨h', e, hh, _⟩ := C10_next (info := heapInfo 7) (fresh := 30)
    heapExample_holds (prev := 12) (by decide) rfl
  exact ⟨h', e, hh⟩

/-- **C10**, links: whatever heap it is called on, `insert_policy_node_next` links the two
nodes in both directions and gives the new node the parent of the old one. -/
theorem C10_next_links {h : Heap} {prev fresh : Ptr} {info : NodeInfo} {n : HNode}
    (hp : h prev = some n) (hne : fresh ≠ prev) :
    ∃ h', h.insertNext (some prev) info fresh = .ok (.success, h') ∧
      h' prev = some { n with next := some fresh } ∧
      h' fresh = some ⟨info, n.parent, some prev, none, none⟩ ∧
      ∀ q, q ≠ prev → q ≠ fresh → h' q = h q := by
  refine ⟨_, by simp only [Heap.insertNext, Heap.read_some hp, Res.bind_ok]; rfl, ?_, ?_, ?_⟩
  · rw [Heap.set_ne _ _ (fun h => hne h.symm), Heap.set_self]
  · rw [Heap.set_self]
  · intro q h1 h2; rw [Heap.set_ne _ _ h2, Heap.set_ne _ _ h1]

/-- The restriction in `C10_next` is needed: called on a node that has a successor,
`insert_policy_node_next` cuts everything after that node off. In the example, 20 is no
longer linked to from anywhere, while its own `prev` still points to 10. The parser never
does this (`C10_parser`). -/
theorem C10_next_drops_successors :
    ∃ h', heapExample.insertNext (some 10) (heapInfo 7) 30 = .ok (.success, h') ∧
      (∀ q n, h' q = some n → n.next ≠ some 20 ∧ n.firstChild ≠ some 20) ∧
      ∃ n, h' 20 = some n ∧ n.prev = some 10 := by
  refine ⟨_, rfl, ?_, ⟨_, rfl, rfl⟩⟩
  intro q n hq
  simp only [Heap.set, heapExample] at hq
  (repeat' split at hq) <;> cases hq <;> decide

/-- **C10**, null: both insertion functions reject a NULL anchor and change nothing. -/
theorem C10_null (h : Heap) (info : NodeInfo) (fresh : Ptr) (fuel : Nat) :
    h.insertChild fuel none info fresh = .ok (.badArg, h) ∧
      h.insertNext none info fresh = .ok (.badArg, h) := ⟨rfl, rfl⟩

/-- All addresses handed out by `malloc` during a sequence of operations. -/
def allocated (ops : List (TreeOp × Ptr × Ptr)) : List Ptr :=
  ops.flatMap fun (op, p, q) => op.allocs p q

theorem run_follows (ops : List (TreeOp × Ptr × Ptr)) : ∀ (h : Heap) (z : ALoc) (fuel : Nat),
    ALoc.Exact h z.forest → (allocated ops).Nodup → (∀ x ∈ allocated ops, x ∉ z.forest.addrs) →
    z.forest.size + 2 * ops.length ≤ fuel →
    ∃ (h' : Heap) (z' : ALoc), HeapCursor.run fuel ⟨h, z.ptr⟩ ops = .ok ⟨h', z'.ptr⟩ ∧
      ALoc.Exact h' z'.forest ∧ z'.loc = (ops.map (·.1)).foldl Loc.grow z.loc ∧
      z'.forest.head = z.forest.head := by
  induction ops with
  | nil => intro h z fuel he _ _ _; exact ⟨h, z, rfl, he, rfl, rfl⟩
  | cons o ops ih =>
    obtain ⟨op, p, q⟩ := o
    intro h z fuel he hnd hfresh hfuel
    simp only [List.length_cons] at hfuel
    have hal : allocated ((op, p, q) :: ops) = op.allocs p q ++ allocated ops := rfl
    rw [hal] at hnd hfresh
    rw [List.nodup_append] at hnd
    obtain ⟨h₁, z₁, e₁, he₁, hl₁, hs₁, hd₁, hm₁⟩ := step_follows (fuel := fuel) he
      (fun x hx => hfresh x (List.mem_append.mpr (.inl hx))) hnd.1 (by omega)
    obtain ⟨h₂, z₂, e₂, he₂, hl₂, hd₂⟩ := ih h₁ z₁ fuel he₁ hnd.2.1 (by
      intro x hx
      rw [hm₁, not_or]
      refine ⟨fun hx' => hnd.2.2 x hx' x hx rfl, hfresh x (List.mem_append.mpr (.inr hx))⟩) (by omega)
    refine ⟨h₂, z₂, ?_, he₂, ?_, ?_⟩
    · simp only [HeapCursor.run, e₁, Res.bind_ok, e₂]
    · rw [hl₂, hl₁]; rfl
    · rw [hd₂, hd₁]

/-- The heap right after parse.y:1160-1167: one node, with all links NULL. -/
def freshHeap (root : Ptr) (info : NodeInfo) : Heap :=
  fun q => if q = root then some ⟨info, none, none, none, none⟩ else none

theorem freshHeap_exact (root : Ptr) (info : NodeInfo) :
    ALoc.Exact (freshHeap root info) (⟨root, info, .nil, .nil, []⟩ : ALoc).forest := by
  refine ⟨⟨by simp [ALoc.forest, ALoc.wrap, Forest.app, Forest.addrs], ?_⟩, ?_⟩
  · intro c hc
    simp only [ALoc.forest, ALoc.wrap, Forest.app, Forest.cells, Forest.head, List.mem_cons,
      List.append_nil, List.not_mem_nil, or_false] at hc
    subst hc
    simp [freshHeap]
  · intro q hq
    simp only [ALoc.forest, ALoc.wrap, Forest.app, Forest.addrs, List.mem_cons, List.append_nil,
      List.not_mem_nil, or_false] at hq
    simp [freshHeap, hq]

/-- **C10**, sequences: starting from the single node of a new file, any sequence of the
operations the parser performs, with any distinct addresses handed out by `malloc`, runs
without touching unallocated memory and leaves a well-formed doubly linked tree and nothing
else on the heap. The tree is the one the functional operations build, and the parser's
cursor is on the same node: the one the functional cursor is on. -/
theorem C10_parser (root : Ptr) (info : NodeInfo) (ops : List (TreeOp × Ptr × Ptr)) (fuel : Nat)
    (hnd : (root :: allocated ops).Nodup) (hfuel : 2 * ops.length + 1 ≤ fuel) :
    ∃ (h : Heap) (cur : Ptr) (f : Forest),
      HeapCursor.run fuel ⟨freshHeap root info, root⟩ ops = .ok ⟨h, cur⟩ ∧
      Holds h f ∧ (∀ q, q ∉ f.addrs → h q = none) ∧ f.head = some root ∧
      f.trees = ((ops.map (·.1)).foldl Loc.grow ⟨.mk info [], [], [], []⟩).unzip ∧
      (h cur).map (·.info) =
        some ((ops.map (·.1)).foldl Loc.grow ⟨.mk info [], [], [], []⟩).info := by
  have hal := List.nodup_cons.mp hnd
  obtain ⟨h, z, e, he, hl, hd⟩ := run_follows ops (freshHeap root info)
    ⟨root, info, .nil, .nil, []⟩ fuel (freshHeap_exact root info) hal.2 (by
      intro x hx
      simp only [ALoc.forest, ALoc.wrap, Forest.app, Forest.addrs, List.mem_cons, List.append_nil,
        List.not_mem_nil, or_false]
      rintro rfl
      exact hal.1 hx) (by
      simp only [ALoc.forest, ALoc.wrap, Forest.app, Forest.size]; omega)
  have hl' : z.loc = (ops.map (·.1)).foldl Loc.grow ⟨.mk info [], [], [], []⟩ := hl
  refine ⟨h, z.ptr, z.forest, e, he.holds, he.only, ?_, ?_, ?_⟩
  · rw [hd]; rfl
  · rw [ALoc.trees_forest, hl']
  · obtain ⟨prev, hr⟩ := ALoc.read_cur he.holds.linked
    rw [hr, ← hl']
    rfl

/-- A file with one block: the file node, a block with a start marker and two statements,
the second with a child, and a statement after the block. -/
def heapOps : List (TreeOp × Ptr × Ptr) :=
  [(.openBlock ⟨.plain .ifdef none, none, 1⟩ ⟨.plain .startBlock none, none, 1⟩, 2, 3),
   (.statement (heapInfo 2), 4, 0), (.statement (heapInfo 3), 5, 0), (.child (heapInfo 3), 6, 0),
   (.closeBlock .ifdef, 0, 0), (.statement (heapInfo 4), 7, 0)]

example : ∃ (h : Heap) (cur : Ptr) (f : Forest),
    HeapCursor.run 13 ⟨freshHeap 1 ⟨.plain .teFile none, none, 0⟩, 1⟩ heapOps = .ok ⟨h, cur⟩ ∧
    Holds h f ∧
    f.trees = [.mk ⟨.plain .teFile none, none, 0⟩ [],
      .mk ⟨.plain .ifdef none, none, 1⟩ [.mk ⟨.plain .startBlock none, none, 1⟩ [],
        .mk (heapInfo 2) [], .mk (heapInfo 3) [.mk (heapInfo 3) []]],
      .mk (heapInfo 4) []] := by
  obtain ⟨h, cur, f, e, hh, _, _, ht, _⟩ := C10_parser 1 ⟨.plain .teFile none, none, 0⟩ heapOps 13
    (by decide) (by decide)
  exact ⟨h, cur, f, e, hh, ht⟩

/-- **C11**: releasing the first node of a heap that holds a well-formed tree frees every
node of the tree exactly once, touches none of them after it has been freed (that would be
undefined behaviour), leaves none of them allocated and touches nothing else. -/
theorem C11_free {h : Heap} {f : Forest} {fuel : Nat} (hh : Holds h f) (hfuel : f.size ≤ fuel) :
    ∃ h' freed, h.freeNode fuel f.head = .ok (h', freed) ∧
      freed.Nodup ∧ (∀ p, p ∈ freed ↔ p ∈ f.addrs) ∧
      (∀ p ∈ f.addrs, h' p = none) ∧ ∀ p, p ∉ f.addrs → h' p = h p := by
  obtain ⟨h', e, h1, h2⟩ := Forest.freeNode_linked f h none none fuel hh.linked hh.distinct hfuel
  refine ⟨h', _, e, ?_, fun p => (Forest.postorder_perm f).mem_iff, h1, h2⟩
  exact (Forest.postorder_perm f).nodup_iff.mpr hh.distinct

example : ∃ h', heapExample.freeNode 4 (some 10) = .ok (h', [12, 11, 20, 10]) := ⟨_, rfl⟩

/-- **C11**, for the parser: after any sequence of operations of the parser, releasing the
file's first node (as parse.y:1176-1180 and runner.c do) leaves nothing allocated, and each
node has been freed exactly once. -/
theorem C11_parser (root : Ptr) (info : NodeInfo) (ops : List (TreeOp × Ptr × Ptr)) (fuel : Nat)
    (hnd : (root :: allocated ops).Nodup) (hfuel : 2 * ops.length + 1 ≤ fuel) :
    ∃ (h : Heap) (cur : Ptr) (h' : Heap) (freed : List Ptr) (depth : Nat),
      HeapCursor.run fuel ⟨freshHeap root info, root⟩ ops = .ok ⟨h, cur⟩ ∧
      (∀ d, depth ≤ d → h.freeNode d (some root) = .ok (h', freed)) ∧
      freed.Nodup ∧ (∀ p, p ∈ freed ↔ h p ≠ none) ∧ ∀ p, h' p = none := by
  obtain ⟨h, cur, f, e, hh, honly, hhead, _, _⟩ := C10_parser root info ops fuel hnd hfuel
  have key : ∀ d, f.size ≤ d → ∃ h', h.freeNode d (some root) = .ok (h', f.postorder) ∧
      ∀ p, h' p = none := by
    intro d hd
    obtain ⟨h', e', h1, h2⟩ := Forest.freeNode_linked f h none none d hh.linked hh.distinct hd
    rw [hhead] at e'
    refine ⟨h', e', fun p => ?_⟩
    by_cases hp : p ∈ f.addrs
    · exact h1 p hp
    · rw [h2 p hp, honly p hp]
  obtain ⟨h₀, e₀, hn₀⟩ := key f.size (Nat.le_refl _)
  refine ⟨h, cur, h₀, f.postorder, f.size, e, ?_, ?_, ?_, hn₀⟩
  · intro d hd
    obtain ⟨h₁, e₁, hn₁⟩ := key d hd
    rw [e₁]
    have : h₁ = h₀ := funext fun p => by rw [hn₁, hn₀]
    rw [this]
  · exact (Forest.postorder_perm f).nodup_iff.mpr hh.distinct
  · intro p
    rw [(Forest.postorder_perm f).mem_iff]
    constructor
    · intro hp
      obtain ⟨n, hc⟩ := Forest.exists_cell none none hp
      rw [hh.linked _ hc]
      simp
    · intro hp
      exact Classical.byContradiction fun hn => hp (honly p hn)

example : ∃ h cur h' freed, HeapCursor.run 13 ⟨freshHeap 1 ⟨.plain .teFile none, none, 0⟩, 1⟩ heapOps =
      .ok ⟨h, cur⟩ ∧ h.freeNode 9 (some 1) = .ok (h', freed) ∧ freed = [6, 5, 4, 3, 7, 2, 1] := by
  refine ⟨_, _, _, _, rfl, rfl, by decide⟩

/-- **C09** on the heap: a traversal with `dfs_next` from the first node of a well-formed
tree visits every node exactly once, in document order, and ends. -/
theorem C09_heap {h : Heap} {f : Forest} {steps fuel : Nat} (hh : Holds h f)
    (hs : f.size ≤ steps) (hfuel : f.size ≤ fuel) :
    h.walk steps fuel f.head = .ok f.addrs ∧ f.addrs.Nodup ∧
      f.addrs.map (fun p => (h p).map (·.info)) = (Tree.preorderList f.trees).map some := by
  refine ⟨?_, hh.distinct, Forest.infos_linked f none none hh.linked⟩
  rw [← Forest.head_addrs]
  refine Forest.walk_steps _ _ ?_ ?_
  · exact Forest.steps_linked f none none 0 none hh.linked (Forest.upRes_none h) (by omega)
  · rw [Forest.length_addrs]; exact hs

example : heapExample.walk 4 4 (some 10) = .ok [10, 11, 12, 20] :=
  (C09_heap (f := heapForest) heapExample_holds (by decide) (by decide)).1

end Selint
