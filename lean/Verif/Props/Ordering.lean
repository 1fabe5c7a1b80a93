import Verif.Lemmas.Lis
import Verif.Lemmas.Ordering
/-!
# C29, C30: the ordering computation of C-001

C29 — the lines not flagged form a sequence in which each may follow its predecessor; for a
consistent comparison it is a longest one.
C30 — the computation stays inside its array and terminates, for every non-empty file.
-/

namespace Selint

open Spec

/-! ## From indices to lines -/

theorem sorted_ext {l1 l2 : List Nat} (h1 : l1.Pairwise (· < ·)) (h2 : l2.Pairwise (· < ·))
    (h : ∀ j, j ∈ l1 ↔ j ∈ l2) : l1 = l2 := by
  induction l1 generalizing l2 with
  | nil =>
    cases l2 with
    | nil => rfl
    | cons b t => have := (h b).2 (by simp); simp at this
  | cons a t ih =>
    cases l2 with
    | nil => have := (h a).1 (by simp); simp at this
    | cons b u =>
      have h1' := List.pairwise_cons.1 h1
      have h2' := List.pairwise_cons.1 h2
      have hab : a = b := by
        rcases List.mem_cons.1 ((h a).1 (by simp)) with e | e
        · exact e
        · rcases List.mem_cons.1 ((h b).2 (by simp)) with e' | e'
          · exact e'.symm
          · have := h1'.1 b e'; have := h2'.1 a e; omega
      subst hab
      have : t = u := ih h1'.2 h2'.2 fun j => by
        constructor
        · intro hj
          have := h1'.1 j hj
          rcases List.mem_cons.1 ((h j).1 (by simp [hj])) with e | e
          · omega
          · exact e
        · intro hj
          have := h2'.1 j hj
          rcases List.mem_cons.1 ((h j).2 (by simp [hj])) with e | e
          · omega
          · exact e
      rw [this]

/-- The kept lines in terms of the marked indices. -/
theorem kept_eq {α : Type} (x : Nat → α) (js : List Nat) : ∀ (n s : Nat) (a : List (OrderNode α)),
    (∀ j, s ≤ j → j < s + n → Lis.io a (j - s) = some (decide (j ∈ js))) →
    kept ((List.range' s n).map x) a =
      ((List.range' s n).filter (fun j => decide (j ∈ js))).map x := by
  intro n
  induction n with
  | zero => intro s a _; simp [kept]
  | succ n ih =>
    intro s a h
    cases a with
    | nil => have := h s (by omega) (by omega); simp [Lis.io] at this
    | cons nd a =>
      have h0 := h s (by omega) (by omega)
      simp only [Nat.sub_self, Lis.io, List.getElem?_cons_zero, Option.map_some,
        Option.some.injEq] at h0
      have ih' := ih (s + 1) a fun j h1 h2 => by
        have := h j (by omega) (by omega)
        have e : j - s = (j - (s + 1)) + 1 := by omega
        rw [e] at this
        simpa [Lis.io] using this
      simp only [List.range'_succ, List.map_cons, kept, h0, List.filter_cons]
      rw [ih']
      split <;> simp

theorem follows_map {α β : Type} (R : β → β → Prop) (f : α → β) (l : List α) :
    Follows R (l.map f) ↔ Follows (fun a b => R (f a) (f b)) l := by
  induction l with
  | nil => simp [Follows]
  | cons a t ih =>
    cases t with
    | nil => simp [Follows]
    | cons b u =>
      simp only [List.map_cons, Follows]
      simp only [List.map_cons] at ih
      rw [ih]

theorem follows_snoc {α : Type} (R : α → α → Prop) (l : List α) (a b : α) :
    Follows R (l ++ [b, a]) ↔ Follows R (l ++ [b]) ∧ R b a := by
  induction l with
  | nil => simp [Follows]
  | cons c t ih =>
    cases t with
    | nil => simp [Follows]
    | cons d u =>
      simp only [List.cons_append, Follows]
      simp only [List.cons_append] at ih
      rw [ih]
      constructor
      · rintro ⟨h1, h2, h3⟩; exact ⟨⟨h1, h2⟩, h3⟩
      · rintro ⟨⟨h1, h2⟩, h3⟩; exact ⟨h1, h2, h3⟩

theorem follows_reverse {α : Type} (R : α → α → Prop) (l : List α) :
    Follows R l.reverse ↔ Follows (fun a b => R b a) l := by
  induction l with
  | nil => simp [Follows]
  | cons a t ih =>
    cases t with
    | nil => simp [Follows]
    | cons b u =>
      have e : (a :: b :: u).reverse = u.reverse ++ [b, a] := by simp
      have e' : (b :: u).reverse = u.reverse ++ [b] := by simp
      rw [e, follows_snoc, ← e', ih]
      simp only [Follows]
      exact and_comm

/-- Everything about the computation on a non-empty list of lines. -/
theorem calcLis_spec {α : Type} (cmp : α → α → Res Int) (c : α → α → Int) (xs : List α)
    (hc : ∀ a ∈ xs, ∀ b ∈ xs, cmp a b = .ok (c a b)) (cap : Nat) (hne : xs ≠ [])
    (hcap : xs.length ≤ cap) :
    ∃ nodes, calcLis cmp cap xs = .ok nodes ∧ nodes.length = cap ∧
      (∀ j (hj : j < xs.length), ∃ n, nodes[j]? = some n ∧ n.node = some xs[j] ∧
        -1 ≤ n.seqPrev ∧ n.seqPrev < j) ∧
      (∀ j n, xs.length ≤ j → nodes[j]? = some n → n.inOrder = false) ∧
      kept xs nodes ≠ [] ∧ (kept xs nodes).Sublist xs ∧
      Follows (fun a b => 0 ≤ c a b) (kept xs nodes) ∧
      ((∀ a ∈ xs, ∀ b ∈ xs, 0 ≤ c a b ∨ 0 ≤ c b a) →
       (∀ a ∈ xs, ∀ b ∈ xs, ∀ d ∈ xs, 0 ≤ c a b → 0 ≤ c b d → 0 ≤ c a d) →
       ∀ ys, ys.Sublist xs → Follows (fun a b => 0 ≤ c a b) ys →
        ys.length ≤ (kept xs nodes).length) := by
  obtain ⟨d, hd⟩ : ∃ d, d ∈ xs := by
    cases xs with
    | nil => exact absurd rfl hne
    | cons a t => exact ⟨a, by simp⟩
  let x : Nat → α := fun j => xs.getD j d
  have hx : ∀ j, x j ∈ xs := by
    intro j
    simp only [x, List.getD_eq_getElem?_getD]
    cases h : xs[j]? with
    | none => simpa using hd
    | some v => simpa using List.mem_of_getElem? h
  have hxs : xs = (List.range xs.length).map x := by
    apply List.ext_getElem
    · simp
    · intro i h1 h2
      simp [x, h1]
  have hn : 0 < xs.length := List.length_pos_iff.2 hne
  obtain ⟨a, js, he, hlen, hnd, hsp, hio, hjne, hjlt, hjd, hjf, hopt⟩ :=
    Lis.calc_ok cmp c x (fun j k => hc _ (hx j) _ (hx k)) cap xs.length hn hcap
      (fun j k => 0 ≤ c (x j) (x k)) (fun _ _ => Iff.rfl)
  rw [← hxs] at he
  have hrange : (List.range xs.length) = List.range' 0 xs.length := List.range_eq_range'
  have hkept : kept xs a = js.reverse.map x := by
    have h1 : kept xs a = kept ((List.range' 0 xs.length).map x) a := by rw [← hrange, ← hxs]
    rw [h1, kept_eq x js xs.length 0 a fun j _ h => by
      have := hio j (by omega); simpa using this]
    congr 1
    apply sorted_ext
    · exact List.Pairwise.filter _ (by rw [← hrange]; exact List.pairwise_lt_range)
    · exact List.pairwise_reverse.2 hjd
    · intro j
      simp only [List.mem_filter, List.mem_range'_1, Nat.zero_le, true_and, decide_eq_true_eq,
        List.mem_reverse]
      constructor
      · exact fun h => h.2
      · exact fun h => ⟨by have := hjlt j h; omega, h⟩
  have hsub : (kept xs a).Sublist xs := by
    have h1 : kept xs a = kept ((List.range' 0 xs.length).map x) a := by rw [← hrange, ← hxs]
    rw [h1, kept_eq x js xs.length 0 a fun j _ h => by
      have := hio j (by omega); simpa using this]
    have h2 : (((List.range' 0 xs.length).filter fun j => decide (j ∈ js)).map x).Sublist
        ((List.range' 0 xs.length).map x) := List.filter_sublist.map x
    have h3 : (List.range' 0 xs.length).map x = xs := by rw [← hrange, ← hxs]
    rwa [h3] at h2
  refine ⟨a, he, hlen, ?_, ?_, ?_, hsub, ?_, ?_⟩
  · intro j hj
    have h1 := hnd j hj
    obtain ⟨q, h2, h3, h4⟩ := hsp j hj
    have hja : j < a.length := by omega
    refine ⟨a[j], List.getElem?_eq_getElem hja, ?_, ?_⟩
    · rw [Lis.nd_at a j hja] at h1
      simp only [Option.some.injEq] at h1
      rw [h1]
      simp [x, hj]
    · rw [Lis.sp_at a j hja] at h2
      simp only [Option.some.injEq] at h2
      rw [h2]; exact ⟨h3, h4⟩
  · intro j n hj hn'
    obtain ⟨hja, e⟩ := List.getElem?_eq_some_iff.1 hn'
    have h1 := hio j (by omega)
    rw [Lis.io_at a j hja] at h1
    simp only [Option.some.injEq] at h1
    rw [← e, h1]
    simp only [decide_eq_false_iff_not]
    intro hm
    have := hjlt j hm; omega
  · rw [hkept]; simpa using hjne
  · rw [hkept, follows_map, follows_reverse]; exact hjf
  · intro total trans ys hys hfol
    rw [hkept, List.length_map, List.length_reverse]
    rw [hxs] at hys
    obtain ⟨l', hl', rfl⟩ := List.sublist_map_iff.1 hys
    rw [List.length_map]
    refine hopt (fun j k => total _ (hx j) _ (hx k))
      (fun j k l => trans _ (hx j) _ (hx k) _ (hx l)) l' ?_ ?_ ?_
    · exact List.Pairwise.sublist hl' List.pairwise_lt_range
    · rw [follows_map] at hfol; exact hfol
    · intro y hy; simpa using hl'.subset hy

/-- **C30.** For every non-empty list of lines, every comparison function and every array at
least as long as the list: no access leaves the array, the loops terminate, every
previous-link points strictly backwards (or is -1), and at least one line is marked. -/
theorem C30_in_bounds_and_terminates {α : Type} (c : α → α → Int) (xs : List α) (hne : xs ≠ [])
    (cap : Nat) (hcap : xs.length ≤ cap) :
    ∃ nodes, calcLis (fun a b => .ok (c a b)) cap xs = .ok nodes ∧ nodes.length = cap ∧
      (∀ j (hj : j < xs.length), ∃ n, nodes[j]? = some n ∧ n.node = some xs[j] ∧
        -1 ≤ n.seqPrev ∧ n.seqPrev < j) ∧
      kept xs nodes ≠ [] := by
  obtain ⟨nodes, h1, h2, h3, _, h5, _⟩ :=
    calcLis_spec (fun a b => .ok (c a b)) c xs (fun _ _ _ _ => rfl) cap hne hcap
  exact ⟨nodes, h1, h2, h3, h5⟩

/-- **C30.** The exclusion of the empty case is necessary: without any line the code reads
`nodes[-1]`. -/
theorem C30_empty_is_undefined {α : Type} (cmp : α → α → Res Int) (cap : Nat) :
    calcLis cmp cap [] = .ub := by
  simp [calcLis, lisLoop, arrGet]

/-- **C29.** For every comparison function: the kept lines are a subsequence of the lines,
and each of them may follow its predecessor. -/
theorem C29_kept_lines_follow {α : Type} (c : α → α → Int) (xs : List α) (hne : xs ≠ [])
    (cap : Nat) (hcap : xs.length ≤ cap) (nodes : List (OrderNode α))
    (h : calcLis (fun a b => .ok (c a b)) cap xs = .ok nodes) :
    (kept xs nodes).Sublist xs ∧ Follows (fun a b => 0 ≤ c a b) (kept xs nodes) := by
  obtain ⟨nodes', h1, _, _, _, _, h6, h7, _⟩ :=
    calcLis_spec (fun a b => .ok (c a b)) c xs (fun _ _ _ _ => rfl) cap hne hcap
  rw [h1] at h
  cases h
  exact ⟨h6, h7⟩

/-- **C29.** If the comparison is consistent on the lines of the file — of two lines at
least one order is accepted, and acceptance is transitive — then no subsequence in which
each line may follow its predecessor is longer than the kept one: the number of flagged
lines is the smallest possible. -/
theorem C29_fewest_flags {α : Type} (c : α → α → Int) (xs : List α) (hne : xs ≠ [])
    (cap : Nat) (hcap : xs.length ≤ cap) (nodes : List (OrderNode α))
    (h : calcLis (fun a b => .ok (c a b)) cap xs = .ok nodes)
    (total : ∀ a ∈ xs, ∀ b ∈ xs, 0 ≤ c a b ∨ 0 ≤ c b a)
    (trans : ∀ a ∈ xs, ∀ b ∈ xs, ∀ d ∈ xs, 0 ≤ c a b → 0 ≤ c b d → 0 ≤ c a d)
    (ys : List α) (hys : ys.Sublist xs) (hf : Follows (fun a b => 0 ≤ c a b) ys) :
    xs.length - (kept xs nodes).length ≤ xs.length - ys.length := by
  obtain ⟨nodes', h1, _, _, _, _, _, _, h8⟩ :=
    calcLis_spec (fun a b => .ok (c a b)) c xs (fun _ _ _ _ => rfl) cap hne hcap
  rw [h1] at h
  cases h
  have := h8 total trans ys hys hf
  omega

/-- Non-vacuity: numbers in their usual order; of seven lines five are kept. -/
example :
    (match calcLis (fun a b : Int => Res.ok (b - a)) 9 [3, 1, 2, 2, 5, 4, 6] with
      | .ok nodes => kept [3, 1, 2, 2, 5, 4, 6] nodes == [1, 2, 2, 4, 6]
      | .ub => false) = true := by decide

/-- With an inconsistent comparison optimality can fail: `0` is accepted next to anything
(like a line of no section), and lines 1 and 3 of the kept sequence `[2, 0, 1]` may not
stand in that order — the computation does not notice. -/
theorem C29_inconsistent_comparison_hides_a_misplaced_line :
    let c : Int → Int → Int := fun a b => if a = 0 ∨ b = 0 then 0 else b - a
    (match calcLis (fun a b => Res.ok (c a b)) 3 [2, 0, 1] with
      | .ok nodes => kept [2, 0, 1] nodes == [2, 0, 1]
      | .ub => false) = true ∧ c 2 1 < 0 := by decide

/-! ## On a parsed te file -/

theorem orderingWalk_ne_nil (l : Loc) : ∃ t, orderingWalk l = l :: t := by
  unfold orderingWalk
  split <;> exact ⟨_, rfl⟩

theorem prepareSections_ok (m : Maps) (ls : List Loc) (h : ∀ l ∈ ls, ShapedLoc l)
    (secs : List SectionData) :
    ∃ secs', prepareSections m ls secs = .ok (some secs') ∧
      (ls ≠ [] ∨ secs ≠ [] → secs' ≠ []) := by
  induction ls generalizing secs with
  | nil => exact ⟨secs, rfl, by simp⟩
  | cons l ls ih =>
    obtain ⟨s, hs⟩ := (h l (by simp)).section m
    obtain ⟨secs', h1, h2⟩ := ih (fun k hk => h k (by simp [hk])) (addSectionInfo s l.info.lineno secs)
    refine ⟨secs', ?_, fun _ => h2 (.inr ?_)⟩
    · simp only [prepareSections, hs, Res.bind_ok, h1]
    · cases secs with
      | nil => simp [addSectionInfo]
      | cons t ts => simp only [addSectionInfo]; split <;> simp

/-- **C29/C30.** C-001 on the file node of any parsed te file, in every configuration: no
undefined behaviour, no internal error; afterwards the static data holds all statements of
the file that are not exempted, in file order, some of them marked in order, such that each
marked one is accepted after the marked one before it. -/
theorem C30_te_file (m : Maps) (data : CheckData) (hfl : data.flavor = .teFile) (head : Loc)
    (h : TeFile head) (st : OrderState) :
    ∃ o, checkTeOrder m data head st = .ok (⟨some o, 0⟩, none) ∧ o.modName = data.modName ∧
      o.nodes.length = (orderingNodes head).length ∧
      (∀ j (hj : j < (orderedNodes head).length), ∃ n, o.nodes[j]? = some n ∧
        n.node = some (orderedNodes head)[j]) ∧
      (∀ j n, (orderedNodes head).length ≤ j → o.nodes[j]? = some n → n.inOrder = false) ∧
      kept (orderedNodes head) o.nodes ≠ [] ∧
      Follows (fun a b => ∃ r, compareNodes m o.sections o.modName data.config.orderConf a b = .ok r
        ∧ 0 ≤ r) (kept (orderedNodes head) o.nodes) := by
  have hns := h.nodes
  obtain ⟨c, hc, hcs, hcm⟩ := h.first
  have hon : orderingNodes head = orderingWalk c := by simp only [orderingNodes, hc]
  obtain ⟨t, ht⟩ := orderingWalk_ne_nil c
  have hne : orderingNodes head ≠ [] := by rw [hon, ht]; simp
  have hone : orderedNodes head ≠ [] := by
    intro he
    have : c ∈ orderedNodes head := by
      simp only [orderedNodes, List.mem_filter, hon, ht]
      exact ⟨by simp, by simpa using hcm⟩
    rw [he] at this; simp at this
  obtain ⟨secs, hps, hsecs⟩ := prepareSections_ok m (orderingNodes head) hns []
  have hsecs' : secs ≠ [] := hsecs (.inl hne)
  let v := data.config.orderConf
  have hcmp : ∀ a ∈ orderedNodes head, ∀ b ∈ orderedNodes head,
      ∃ r, compareNodes m secs data.modName v a b = .ok r := by
    intro a ha b hb
    simp only [orderedNodes, List.mem_filter, decide_eq_true_eq] at ha hb
    obtain ⟨r, hr, _⟩ := compareNodes_ok m secs data.modName v hsecs' a b (hns a ha.1) (hns b hb.1)
      ha.2 hb.2
    exact ⟨r, hr⟩
  let cf : Loc → Loc → Int := fun a b =>
    match compareNodes m secs data.modName v a b with | .ok r => r | .ub => 0
  have hcf : ∀ a ∈ orderedNodes head, ∀ b ∈ orderedNodes head,
      compareNodes m secs data.modName v a b = .ok (cf a b) := by
    intro a ha b hb
    obtain ⟨r, hr⟩ := hcmp a ha b hb
    simp only [cf, hr]
  have hlen : (orderedNodes head).length ≤ (orderingNodes head).length := List.length_filter_le _ _
  obtain ⟨nodes, e1, e2, e3, e4, e5, e6, e7, _⟩ :=
    calcLis_spec (compareNodes m secs data.modName v) cf (orderedNodes head) hcf
      (orderingNodes head).length hone hlen
  refine ⟨⟨data.modName, secs, nodes⟩, ?_, rfl, e2, ?_, e4, e5, ?_⟩
  · simp only [checkTeOrder, hfl, h.flavor, prepareOrderingMetadata, hps, ne_eq,
      not_true_eq_false, if_false, if_true, Res.bind_ok, Res.pure_eq, List.length_replicate]
    rw [e1]; rfl
  · intro j hj
    obtain ⟨n, h1, h2, _⟩ := e3 j hj
    exact ⟨n, h1, h2⟩
  · have hsub : ∀ a ∈ kept (orderedNodes head) nodes, a ∈ orderedNodes head := fun a ha => e6.subset ha
    have : ∀ l : List Loc, (∀ a ∈ l, a ∈ orderedNodes head) → Follows (fun a b => 0 ≤ cf a b) l →
        Follows (fun a b => ∃ r, compareNodes m secs data.modName v a b = .ok r ∧ 0 ≤ r) l := by
      intro l
      induction l with
      | nil => intro _ _; trivial
      | cons a t ih =>
        cases t with
        | nil => intro _ _; trivial
        | cons b u =>
          intro hm hf
          refine ⟨⟨cf a b, hcf a (hm a (by simp)) b (hm b (by simp)), hf.1⟩, ?_⟩
          exact ih (fun k hk => hm k (by simp [hk])) hf.2
    exact this _ hsub e7

/-! ## A concrete te file -/

/-- The node for one statement. -/
def exTeNode (line : Nat) (d : NodeData) (cs : List Tree := []) : Tree := .mk ⟨d, none, line⟩ cs

/-- `policy_module(foo)`, `allow foo_t self:process signal;`, `type foo_t;` and an optional
block with one call. -/
def exTeFile : Loc :=
  ⟨exTeNode 1 (.plain .teFile none), [],
    [exTeNode 1 (.header ⟨.macro, cs!"foo"⟩),
     exTeNode 2 (.av ⟨.allow, [cs!"foo_t"], [cs!"self"], [cs!"process"], [cs!"signal"]⟩),
     exTeNode 3 (.decl ⟨.type, cs!"foo_t", []⟩) [exTeNode 3 (.plain .alias (some cs!"bar_t"))],
     exTeNode 4 (.plain .optionalPolicy none)
      [exTeNode 4 (.plain .startBlock none),
       exTeNode 5 (.ifCall ⟨cs!"bar_read", [(cs!"foo_t", false)]⟩)]], []⟩

theorem exTeFile_is_te_file : TeFile exTeFile where
  flavor := rfl
  top := rfl
  childless := rfl
  nonempty := by simp [exTeFile]
  shaped := by
    simp [exTeFile, exTeNode, ShapedList, Shaped, NodeShaped, isConditional, conditionalOf,
      hasAliases, RuleShaped, OrdinaryFirst, IfCallData.argStrs, NodeInfo.flavor, NodeData.flavor, PlainFlavor.toFlavor]
  noMarker := by
    simp [exTeFile, exTeNode, NodeInfo.flavor, NodeData.flavor, PlainFlavor.toFlavor]

end Selint
