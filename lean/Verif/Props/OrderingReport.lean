import Verif.Props.Ordering
import Verif.Props.OrderingPair
/-!
# C29, C31, C53: which lines C-001 reports, and the message

C53 — the text of a C-001 report is complete: the buffer computed for it always suffices.
-/

namespace Selint

open Spec

/-! ## Positions grow along the traversal -/

/-- The position of a node, outermost index first. -/
def Loc.pos (l : Loc) : List Nat := l.path.reverse

theorem Loc.pos_eq (l : Loc) : l.pos = (l.ups.map (·.lefts.length)).reverse ++ [l.lefts.length] := by
  simp [Loc.pos, Loc.path]

theorem append_lt_append {p a b : List Nat} (h : a < b) : p ++ a < p ++ b := by
  induction p with
  | nil => exact h
  | cons x p ih => exact List.Lex.cons ih

theorem pos_firstChild {l c : Loc} (h : l.firstChild? = some c) : l.pos < c.pos := by
  unfold Loc.firstChild? at h
  split at h
  · cases h
  · cases h
    rw [Loc.pos_eq, Loc.pos_eq]
    simp only [List.map_cons, List.reverse_cons, List.append_assoc]
    apply append_lt_append
    exact List.Lex.cons List.Lex.nil

theorem pos_next {l n : Loc} (h : l.next? = some n) : l.pos < n.pos := by
  unfold Loc.next? at h
  split at h
  · cases h
  · cases h
    rw [Loc.pos_eq, Loc.pos_eq]
    apply append_lt_append
    exact List.Lex.rel (by simp)

theorem pos_climb (t : Tree) (ls rs : List Tree) (ups : List Frame) (n : Loc)
    (h : Loc.climb t ls rs ups = some n) (s : List Nat) :
    (ups.map (·.lefts.length)).reverse ++ ls.length :: s < n.pos := by
  induction ups generalizing t ls rs s with
  | nil => simp [Loc.climb] at h
  | cons f fs ih =>
    unfold Loc.climb at h
    split at h
    · cases h
      rw [Loc.pos_eq]
      simp only [List.map_cons, List.reverse_cons, List.append_assoc]
      apply append_lt_append
      exact List.Lex.rel (by simp)
    · have := ih _ _ _ h (ls.length :: s)
      simpa using this

theorem pos_dfsNext {l n : Loc} (h : l.dfsNext = some n) : l.pos < n.pos := by
  unfold Loc.dfsNext at h
  split at h
  · cases h; exact pos_firstChild (by assumption)
  · split at h
    · cases h; exact pos_next (by assumption)
    · rw [Loc.pos_eq]; exact pos_climb _ _ _ _ _ h []

theorem pos_orderingNext {l n : Loc} (h : orderingNext l = some n) : l.pos < n.pos := by
  fun_induction orderingNext l with
  | case1 => cases h
  | case2 l n' hd _ ih => exact List.lt_trans (pos_dfsNext hd) (ih h)
  | case3 l n' hd => cases h; exact pos_dfsNext hd

theorem pos_orderingWalk (l : Loc) : (orderingWalk l).Pairwise (fun a b => a.pos < b.pos) ∧
    ∀ n ∈ orderingWalk l, n = l ∨ l.pos < n.pos := by
  fun_induction orderingWalk l with
  | case1 l _ => simp
  | case2 l n h ih =>
    have hn := pos_orderingNext h
    have hall : ∀ k ∈ orderingWalk n, l.pos < k.pos := by
      intro k hk
      rcases ih.2 k hk with rfl | h'
      · exact hn
      · exact List.lt_trans hn h'
    refine ⟨List.pairwise_cons.2 ⟨hall, ih.1⟩, ?_⟩
    intro k hk
    rcases List.mem_cons.1 hk with rfl | hk
    · exact .inl rfl
    · exact .inr (hall k hk)

theorem pos_orderedNodes (head : Loc) :
    (orderedNodes head).Pairwise (fun a b => a.pos < b.pos) := by
  unfold orderedNodes orderingNodes
  split
  · simp
  · exact (pos_orderingWalk _).1.filter _

theorem path_orderedNodes_inj (head : Loc) {i j : Nat} (hi : i < (orderedNodes head).length)
    (hj : j < (orderedNodes head).length)
    (h : (orderedNodes head)[i].path = (orderedNodes head)[j].path) : i = j := by
  have hp : (orderedNodes head)[i].pos = (orderedNodes head)[j].pos := by
    simp only [Loc.pos, h]
  have hpw := List.pairwise_iff_getElem.1 (pos_orderedNodes head)
  rcases Nat.lt_trichotomy i j with hlt | e | hlt
  · have := hpw i j hi hj hlt
    rw [hp] at this; exact absurd this (List.lt_irrefl _)
  · exact e
  · have := hpw j i hj hi hlt
    rw [hp] at this; exact absurd this (List.lt_irrefl _)

/-! ## The search for the array element -/

theorem findOrderNode_eq (head : Loc) (nodes : List (OrderNode Loc))
    (hn : ∀ j (hj : j < (orderedNodes head).length), ∃ n, nodes[j]? = some n ∧
        n.node = some (orderedNodes head)[j]) (j : Nat) (hj : j < (orderedNodes head).length)
    (i : Nat) (hi : i ≤ j) : findOrderNode nodes (orderedNodes head)[j] i = some j := by
  generalize hd : j - i = d
  induction d generalizing i with
  | zero =>
    have : i = j := by omega
    subst this
    obtain ⟨n, h1, h2⟩ := hn i hj
    obtain ⟨hl, h1⟩ := List.getElem?_eq_some_iff.1 h1
    unfold findOrderNode
    rw [dif_pos hl]
    simp only [h1, h2, if_true]
  | succ d ih =>
    obtain ⟨n, h1, h2⟩ := hn i (by omega)
    obtain ⟨hl, h1⟩ := List.getElem?_eq_some_iff.1 h1
    unfold findOrderNode
    rw [dif_pos hl]
    simp only [h1, h2]
    rw [if_neg, ih (i + 1) (by omega) (by omega)]
    intro he
    have := path_orderedNodes_inj head (by omega) hj he
    omega

/-! ## The message -/

theorem natToStr_length {n : Nat} (h : n < 2 ^ 32) : (natToStr n).length ≤ 10 := by
  unfold natToStr
  rw [Nat.length_toDigits_le_iff (by omega) (by omega)]
  omega

/-- **C53.** For every line number an `unsigned int` holds: the message is stored completely,
with its note, and no write leaves the buffer. -/
theorem C53_message_is_complete (lss beforeAfter reason : Str) (lineno : Nat)
    (h : lineno < 2 ^ 32) (note : Option Str) :
    formatReason lss beforeAfter lineno reason note =
      .ok (cs!"Line out of order.  It is of type " ++ lss ++ cs!" " ++ beforeAfter ++ cs!" line " ++
        natToStr lineno ++ cs!" " ++ reason ++ cs!"." ++ note.getD []) := by
  have := natToStr_length h
  unfold formatReason snprintfStored strncatBuf
  dsimp only
  cases note with
  | none =>
    simp only [Option.getD_none, List.append_nil]
    rw [List.take_of_length_le]
    simp only [List.length_append, List.length_cons, List.length_nil]
    omega
  | some f =>
    simp only [Option.getD_some]
    rw [List.take_of_length_le (by
      simp only [List.length_append, List.length_cons, List.length_nil]; omega)]
    rw [List.take_of_length_le (by
      simp only [List.length_append, List.length_cons, List.length_nil]; omega)]
    rw [if_pos (by
      simp only [List.length_append, List.length_cons, List.length_nil]; omega)]

/-! ## The nearest conflicting line -/

theorem compareNodes_local {m : Maps} {secs : List SectionData} {mod : Str} {v : OrderConf}
    {a b : Loc} (hsecs : secs ≠ []) (h : compareNodes m secs mod v a b = .ok (-orderLocalSubsection)) :
    getLocalSubsection m mod v a ≠ .unknown ∧ getLocalSubsection m mod v b ≠ .unknown := by
  rw [compareNodes_eq] at h
  unfold compareStep at h
  cases e1 : getSection m a with
  | ub => simp [e1] at h
  | ok o1 =>
  cases e2 : getSection m b with
  | ub => simp [e1, e2] at h
  | ok o2 =>
  simp only [e1, e2, Res.bind_ok] at h
  cases o1 with
  | none => simp [orderingError, orderLocalSubsection] at h
  | some s1 =>
  cases o2 with
  | none => simp [orderingError, orderLocalSubsection] at h
  | some s2 =>
  dsimp only at h
  split at h
  · simp [orderEqual, orderLocalSubsection] at h
  · split at h
    · obtain ⟨r, hr, hr'⟩ := compareSections_ok secs s1 s2 hsecs
      rw [hr] at h
      cases h
      rcases hr' with hr' | hr' <;> exact absurd hr' (by decide)
    · split at h
      · simp only [Res.pure_eq, Res.ok.injEq] at h
        unfold compareDeclarations at h
        exfalso
        split at h
        · split at h
          · simp only [checkOrdering] at h
            revert h
            repeat' split
            all_goals decide
          · exact absurd h (by decide)
        · exact absurd h (by decide)
      · unfold compareLocal at h
        dsimp only at h
        split at h
        · simp [orderEqual, orderLocalSubsection] at h
        · rename_i hu
          exact not_or.1 hu

/-- Line `i` of the array is marked as in order and may not stand where it does relative to
line `index`; `x` is the result of the comparison. -/
def ConflictsWith (m : Maps) (v : OrderConf) (o : OrderingMetadata) (index : Nat) (this : Loc)
    (i : Nat) (other : Loc) (x : Int) : Prop :=
  (∃ n, o.nodes[i]? = some n ∧ n.inOrder = true ∧ n.node = some other) ∧ x < 0 ∧
    ((i < index ∧ compareNodes m o.sections o.modName v other this = .ok x) ∨
     (index < i ∧ compareNodes m o.sections o.modName v this other = .ok x))

/-- What the search relies on. -/
structure Prepared (o : OrderingMetadata) : Prop where
  secs : o.sections ≠ []
  marked : ∀ (i : Nat) n, o.nodes[i]? = some n → n.inOrder = true →
    ∃ l, n.node = some l ∧ ShapedLoc l ∧ l.flavor ≠ .startBlock

theorem arrGet_nat {α : Type} {a : List (OrderNode α)} {i : Nat} {n : OrderNode α}
    (h : a[i]? = some n) : arrGet a (i : Int) = .ok n := by
  simp [arrGet, h]

theorem arrNode_nat {α : Type} {a : List (OrderNode α)} {i : Nat} {n : OrderNode α} {l : α}
    (h : a[i]? = some n) (hl : n.node = some l) : arrNode a (i : Int) = .ok l := by
  simp [arrNode, arrGet_nat h, hl]

theorem conflictAt_ok (m : Maps) (v : OrderConf) (o : OrderingMetadata) (ho : Prepared o)
    (index : Nat) (this : Loc) (n0 : OrderNode Loc) (h0 : o.nodes[index]? = some n0)
    (h0' : n0.node = some this) (hs : ShapedLoc this) (hb : this.flavor ≠ .startBlock)
    (i : Nat) (hi : i < o.nodes.length) (hne : i ≠ index) :
    ∃ r, conflictAt m v o i (min i index) (max i index) = .ok r ∧
      (∀ x, r = some x → ∃ other, ConflictsWith m v o index this i other x) ∧
      (r = none → ∀ other x, ¬ ConflictsWith m v o index this i other x) := by
  have hn := List.getElem?_eq_getElem hi
  unfold conflictAt
  rw [arrGet_nat hn, Res.bind_ok]
  cases hio : (o.nodes[i]).inOrder with
  | false =>
    refine ⟨none, by simp, by simp, ?_⟩
    rintro - other x ⟨⟨n, h1, h2, _⟩, _⟩
    rw [hn] at h1; cases h1; rw [hio] at h2; cases h2
  | true =>
    obtain ⟨l, hl, hls, hlb⟩ := ho.marked i _ hn hio
    rcases Nat.lt_or_gt_of_ne hne with hlt | hgt
    · rw [Nat.min_eq_left (by omega), Nat.max_eq_right (by omega)]
      obtain ⟨x, hx, _⟩ := compareNodes_ok m o.sections o.modName v ho.secs l this hls hs hlb hb
      rw [arrNode_nat hn hl, arrNode_nat h0 h0']
      simp only [if_true, Res.bind_ok, hx, Res.pure_eq]
      refine ⟨_, rfl, ?_, ?_⟩
      · intro y hy
        split at hy
        · cases hy; exact ⟨l, ⟨_, hn, hio, hl⟩, by assumption, .inl ⟨hlt, hx⟩⟩
        · cases hy
      · rintro hy other y ⟨⟨n, h1, _, h3⟩, h4, h5⟩
        rw [hn] at h1; cases h1
        rw [hl] at h3; cases h3
        rcases h5 with ⟨_, h5⟩ | ⟨h5, _⟩
        · rw [hx] at h5; cases h5
          simp [h4] at hy
        · omega
    · rw [Nat.min_eq_right (by omega), Nat.max_eq_left (by omega)]
      obtain ⟨x, hx, _⟩ := compareNodes_ok m o.sections o.modName v ho.secs this l hs hls hb hlb
      rw [arrNode_nat hn hl, arrNode_nat h0 h0']
      simp only [if_true, Res.bind_ok, hx, Res.pure_eq]
      refine ⟨_, rfl, ?_, ?_⟩
      · intro y hy
        split at hy
        · cases hy; exact ⟨l, ⟨_, hn, hio, hl⟩, by assumption, .inr ⟨hgt, hx⟩⟩
        · cases hy
      · rintro hy other y ⟨⟨n, h1, _, h3⟩, h4, h5⟩
        rw [hn] at h1; cases h1
        rw [hl] at h3; cases h3
        rcases h5 with ⟨h5, _⟩ | ⟨_, h5⟩
        · omega
        · rw [hx] at h5; cases h5
          simp [h4] at hy

theorem nearestConflict_ok (m : Maps) (v : OrderConf) (o : OrderingMetadata) (ho : Prepared o)
    (index : Nat) (this : Loc) (n0 : OrderNode Loc) (h0 : o.nodes[index]? = some n0)
    (h0' : n0.node = some this) (hs : ShapedLoc this) (hb : this.flavor ≠ .startBlock) :
    ∀ (fuel distance : Nat), 0 < distance → o.nodes.length + index + 2 ≤ fuel + distance →
      (distance ≤ index ∨ index + distance ≤ o.nodes.length ∨ distance = 1) →
      (∀ i other x, 0 < i → index < i + distance → i < index + distance →
        ¬ ConflictsWith m v o index this i other x) →
      ∃ r, nearestConflict m v o index fuel distance = .ok r ∧
        (∀ k x, r = some (k, x) → 0 < k ∧ (∃ other, ConflictsWith m v o index this k other x) ∧
          ∀ i other y, 0 < i → i - index + (index - i) < k - index + (index - k) →
            ¬ ConflictsWith m v o index this i other y) ∧
        (r = none → ∀ i other x, 0 < i → ¬ ConflictsWith m v o index this i other x) := by
  have hidx := (List.getElem?_eq_some_iff.1 h0).1
  intro fuel
  induction fuel with
  | zero => intro distance h1 h2 h3; omega
  | succ fuel ih =>
    intro d h1 h2 h3 hno
    unfold nearestConflict
    have hbefore : ∃ r, conflictBefore m v o index d = .ok r ∧
        (∀ x, r = some x → d < index ∧ ∃ other, ConflictsWith m v o index this (index - d) other x) ∧
        (r = none → d < index → ∀ other x, ¬ ConflictsWith m v o index this (index - d) other x) := by
      unfold conflictBefore
      by_cases hd : d < index
      · rw [if_pos hd]
        obtain ⟨r, e1, e2, e3⟩ := conflictAt_ok m v o ho index this n0 h0 h0' hs hb (index - d)
          (by omega) (by omega)
        rw [Nat.min_eq_left (by omega), Nat.max_eq_right (by omega)] at e1
        exact ⟨r, e1, fun x hx => ⟨hd, e2 x hx⟩, fun h _ => e3 h⟩
      · rw [if_neg hd]
        exact ⟨none, rfl, by simp, fun _ h => absurd h hd⟩
    have hafter : ∃ r, conflictAfter m v o index d = .ok r ∧
        (∀ x, r = some x → ∃ other, ConflictsWith m v o index this (index + d) other x) ∧
        (r = none → ∀ other x, ¬ ConflictsWith m v o index this (index + d) other x) := by
      unfold conflictAfter
      by_cases hd : index + d < o.nodes.length
      · rw [if_pos hd]
        obtain ⟨r, e1, e2, e3⟩ := conflictAt_ok m v o ho index this n0 h0 h0' hs hb (index + d)
          (by omega) (by omega)
        rw [Nat.min_eq_right (by omega), Nat.max_eq_left (by omega)] at e1
        exact ⟨r, e1, e2, e3⟩
      · rw [if_neg hd]
        refine ⟨none, rfl, by simp, ?_⟩
        rintro - other x ⟨⟨n, h, _⟩, _⟩
        have := (List.getElem?_eq_some_iff.1 h).1
        omega
    obtain ⟨rb, eb, eb1, eb2⟩ := hbefore
    obtain ⟨ra, ea, ea1, ea2⟩ := hafter
    rw [eb, Res.bind_ok]
    cases rb with
    | some x =>
      refine ⟨_, rfl, ?_, by simp⟩
      intro k y h; cases h
      obtain ⟨hd, hc⟩ := eb1 x rfl
      exact ⟨by omega, hc, fun i other y hi hlt => hno i other y hi (by omega) (by omega)⟩
    | none =>
      simp only [ea, Res.bind_ok]
      cases ra with
      | some x =>
        refine ⟨_, rfl, ?_, by simp⟩
        intro k y h; cases h
        exact ⟨by omega, ea1 x rfl, fun i other y hi hlt => hno i other y hi (by omega) (by omega)⟩
      | none =>
        have hno' : ∀ i other x, 0 < i → index < i + (d + 1) → i < index + (d + 1) →
            ¬ ConflictsWith m v o index this i other x := by
          intro i other x hi h4 h5
          by_cases hx : index < i + d ∧ i < index + d
          · exact hno i other x hi hx.1 hx.2
          · by_cases hb' : i = index - d
            · by_cases hdi : d < index
              · rw [hb']; exact eb2 rfl hdi other x
              · omega
            · have : i = index + d := by omega
              rw [this]; exact ea2 rfl other x
        dsimp only
        split
        · rename_i hend
          refine ⟨none, rfl, by simp, ?_⟩
          rintro - i other x hi hc
          have hlt : i < o.nodes.length := by
            obtain ⟨⟨n, h, _⟩, _⟩ := hc
            exact (List.getElem?_eq_some_iff.1 h).1
          exact hno' i other x hi (by omega) (by omega) hc
        · exact ih (d + 1) (by omega) (by omega) (by omega) hno'

theorem reasonText_ok (m : Maps) (v : OrderConf) (o : OrderingMetadata) (ho : Prepared o)
    (index : Nat) (this : Loc) (hs : ShapedLoc this) (hb : this.flavor ≠ .startBlock)
    (k : Nat) (other : Loc) (x : Int) (hc : ConflictsWith m v o index this k other x) :
    ∃ txt note, reasonText m v o index k x this other = .ok (some (txt, note)) := by
  obtain ⟨⟨n, h1, h2, h3⟩, hx, hcmp⟩ := hc
  obtain ⟨l, hl, hls, hlb⟩ := ho.marked k n h1 h2
  rw [h3] at hl; cases hl
  have hmem : x ∈ orderReasons := by
    rcases hcmp with ⟨_, hcmp⟩ | ⟨_, hcmp⟩
    · obtain ⟨r, e1, e2⟩ := compareNodes_range m o.sections o.modName v ho.secs other this hls hs hlb hb
      rw [hcmp] at e1; cases e1; exact e2
    · obtain ⟨r, e1, e2⟩ := compareNodes_range m o.sections o.modName v ho.secs this other hs hls hb hlb
      rw [hcmp] at e1; cases e1; exact e2
  have hloc : x = -orderLocalSubsection → getLocalSubsection m o.modName v other ≠ .unknown := by
    intro h
    subst h
    rcases hcmp with ⟨_, hcmp⟩ | ⟨_, hcmp⟩
    · exact (compareNodes_local ho.secs hcmp).1
    · exact (compareNodes_local ho.secs hcmp).2
  obtain ⟨s1, e1⟩ := hs.section m
  obtain ⟨s2, e2⟩ := hls.section m
  unfold reasonText
  by_cases c1 : -x = orderSection
  · rw [if_pos c1]; simp only [e1, e2, Res.bind_ok, Res.pure_eq]
    exact ⟨_, _, rfl⟩
  · rw [if_neg c1]
    by_cases c2 : -x = orderDeclSubsection
    · rw [if_pos c2]; exact ⟨_, _, rfl⟩
    · rw [if_neg c2]
      by_cases c3 : -x = orderLocalSubsection
      · rw [if_pos c3]
        have := hloc (by omega)
        dsimp only
        generalize getLocalSubsection m o.modName v other = ol at this ⊢
        cases ol <;> first | exact absurd rfl this | exact ⟨_, _, rfl⟩
      · rw [if_neg c3]
        by_cases c4 : -x = orderAlphabetical
        · rw [if_pos c4]; exact ⟨_, _, rfl⟩
        · exfalso
          simp only [orderReasons, List.mem_cons, List.not_mem_nil, or_false, orderEqual,
            orderSection, orderDeclSubsection, orderLocalSubsection, orderAlphabetical] at *
          omega

/-- C-001 on the lines of a parsed te file, in terms of the comparison. -/
theorem order_report (m : Maps) (data : CheckData) (hfl : data.flavor = .teFile) (head : Loc)
    (h : TeFile head) (st : OrderState)
    (hline : ∀ l ∈ orderedNodes head, l.info.lineno < 2 ^ 32) :
    ∃ o, checkTeOrder m data head st = .ok (⟨some o, 0⟩, none) ∧
      ∀ j (hj : j < (orderedNodes head).length) (i : Nat), i ≤ j →
        ∃ n, o.nodes[j]? = some n ∧
        ∃ r, checkTeOrder m data (orderedNodes head)[j] ⟨some o, i⟩ = .ok (⟨some o, j⟩, r) ∧
          (n.inOrder = true → r = none) ∧
          (n.inOrder = false →
            (∃ k other x, ConflictsWith m data.config.orderConf o j (orderedNodes head)[j] k other x ∧
              0 < k ∧ other ∈ orderedNodes head ∧
              (∀ i other' y, 0 < i → i - j + (j - i) < k - j + (j - k) →
                ¬ ConflictsWith m data.config.orderConf o j (orderedNodes head)[j] i other' y) ∧
              ∃ txt note, reasonText m data.config.orderConf o j k x (orderedNodes head)[j] other =
                  .ok (some (txt, note)) ∧
                r = some ⟨'C', 1, cs!"Line out of order.  It is of type " ++
                  lssToString (getLocalSubsection m o.modName data.config.orderConf (orderedNodes head)[j]) ++
                  cs!" " ++ (if k > j then cs!"before" else cs!"after") ++ cs!" line " ++
                  natToStr other.info.lineno ++ cs!" " ++ txt ++ cs!"." ++ note.getD []⟩) ∨
            ((∀ k other x, 0 < k →
                ¬ ConflictsWith m data.config.orderConf o j (orderedNodes head)[j] k other x) ∧
              r = some (internalError cs!"Failed to compute reason C-001"))) := by
  obtain ⟨o, e1, e2, e3, e4, e5, e6, e7⟩ := C30_te_file m data hfl head h st
  have hmem : ∀ l ∈ orderedNodes head, ShapedLoc l ∧ l.flavor ≠ .startBlock := by
    intro l hl
    simp only [orderedNodes, List.mem_filter, decide_eq_true_eq] at hl
    exact ⟨h.nodes l hl.1, hl.2⟩
  have hsecs : o.sections ≠ [] := by
    obtain ⟨secs, hps, hsecs⟩ := prepareSections_ok m (orderingNodes head) h.nodes []
    simp only [checkTeOrder, hfl, h.flavor, prepareOrderingMetadata, hps, ne_eq,
      not_true_eq_false, if_false, if_true, Res.bind_ok, Res.pure_eq] at e1
    obtain ⟨c, hc, _⟩ := h.first
    cases hcl : calcLis (compareNodes m secs data.modName data.config.orderConf)
        (List.replicate (orderingNodes head).length OrderNode.zero).length (orderedNodes head) with
    | ub => rw [hcl] at e1; cases e1
    | ok ns =>
      rw [hcl] at e1
      cases e1
      refine hsecs (.inl ?_)
      simp only [orderingNodes, hc]
      obtain ⟨t, ht⟩ := orderingWalk_ne_nil c
      rw [ht]; simp
  have hnode : ∀ (i : Nat) n, o.nodes[i]? = some n → n.inOrder = true →
      ∃ hi : i < (orderedNodes head).length, n.node = some (orderedNodes head)[i] := by
    intro i n hn hio
    by_cases hi : i < (orderedNodes head).length
    · obtain ⟨n', h1, h2⟩ := e4 i hi
      rw [hn] at h1; cases h1
      exact ⟨hi, h2⟩
    · rw [e5 i n (by omega) hn] at hio; cases hio
  have hprep : Prepared o := by
    refine ⟨hsecs, ?_⟩
    intro i n hn hio
    obtain ⟨hi, h2⟩ := hnode i n hn hio
    exact ⟨_, h2, hmem _ (List.getElem_mem _)⟩
  refine ⟨o, e1, ?_⟩
  intro j hj i hij
  obtain ⟨n, hn, hnn⟩ := e4 j hj
  refine ⟨n, hn, ?_⟩
  have hloc := hmem _ (List.getElem_mem hj)
  have hfl1 : (orderedNodes head)[j].flavor ≠ .teFile := by
    intro hc
    have := hloc.1.focus.node.2.2.2.2.2
    simp only [Loc.flavor] at hc
    simp [hc] at this
  have hfl2 : (orderedNodes head)[j].flavor ≠ .cleanup := by
    intro hc
    have := hloc.1.focus.node.2.2.2.2.2
    simp only [Loc.flavor] at hc
    simp [hc] at this
  unfold checkTeOrder
  simp only [hfl, ne_eq, not_true_eq_false, if_false, hfl1, hfl2,
    findOrderNode_eq head o.nodes e4 j hj i hij, arrGet_nat hn, Res.bind_ok]
  cases hio : n.inOrder with
  | true => exact ⟨none, by simp, by simp, by simp⟩
  | false =>
    simp only [Bool.false_eq_true, if_false, getOrderingReason]
    obtain ⟨r, er, er1, er2⟩ := nearestConflict_ok m data.config.orderConf o hprep j _ n hn hnn
      hloc.1 hloc.2 (o.nodes.length + j + 1) 1 (by omega) (by omega) (by omega)
      (by
        rintro k other x - h1 h2 ⟨-, -, h3⟩
        have : k = j := by omega
        rcases h3 with ⟨h3, _⟩ | ⟨h3, _⟩ <;> omega)
    rw [er, Res.bind_ok]
    cases r with
    | none =>
      simp only [Res.pure_eq, Res.bind_ok]
      exact ⟨_, rfl, by simp, fun _ => .inr ⟨er2 rfl, rfl⟩⟩
    | some kx =>
      obtain ⟨k, x⟩ := kx
      obtain ⟨hk0, ⟨other, hc⟩, hnear⟩ := er1 k x rfl
      obtain ⟨txt, note, ht⟩ := reasonText_ok m data.config.orderConf o hprep j _ hloc.1 hloc.2 k
        other x hc
      obtain ⟨nk, hk1, hk2, hk3⟩ := hc.1
      obtain ⟨hklt, hk4⟩ := hnode k nk hk1 hk2
      rw [hk3] at hk4
      have hline' : other.info.lineno < 2 ^ 32 := by
        cases hk4; exact hline _ (List.getElem_mem _)
      simp only [arrNode_nat hn hnn, arrNode_nat hk1 hk3, Res.bind_ok, ht,
        C53_message_is_complete _ _ _ _ hline', Res.pure_eq]
      refine ⟨_, rfl, by simp, fun _ => .inl ⟨k, other, x, hc, hk0, ?_, hnear, txt, note, ht, rfl⟩⟩
      cases hk4
      exact List.getElem_mem _

/-- **C29.** What C-001 reports about the lines of a parsed te file, given the data computed
at the file node: nothing for a marked line; for any other line a C-001 finding that names
the line of a marked statement it conflicts with, of which there is none nearer to it. Only if there is no such statement (other
than the module header at index 0) an internal error is reported instead. The search for the
line never fails, whatever line was looked up before. -/
theorem C29_reports (m : Maps) (data : CheckData) (hfl : data.flavor = .teFile) (head : Loc)
    (h : TeFile head) (st : OrderState)
    (hline : ∀ l ∈ orderedNodes head, l.info.lineno < 2 ^ 32) :
    ∃ o, checkTeOrder m data head st = .ok (⟨some o, 0⟩, none) ∧
      ∀ j (hj : j < (orderedNodes head).length) (i : Nat), i ≤ j →
        ∃ n, o.nodes[j]? = some n ∧
        ∃ r, checkTeOrder m data (orderedNodes head)[j] ⟨some o, i⟩ = .ok (⟨some o, j⟩, r) ∧
          (n.inOrder = true → r = none) ∧
          (n.inOrder = false →
            (∃ k other x, ConflictsWith m data.config.orderConf o j (orderedNodes head)[j] k other x ∧
              0 < k ∧
              (∀ i other' y, 0 < i → i - j + (j - i) < k - j + (j - k) →
                ¬ ConflictsWith m data.config.orderConf o j (orderedNodes head)[j] i other' y) ∧
              ∃ pre post, r = some ⟨'C', 1, pre ++ cs!" line " ++ natToStr other.info.lineno ++
                cs!" " ++ post⟩) ∨
            ((∀ k other x, 0 < k →
                ¬ ConflictsWith m data.config.orderConf o j (orderedNodes head)[j] k other x) ∧
              r = some (internalError cs!"Failed to compute reason C-001"))) := by
  obtain ⟨o, e1, e2⟩ := order_report m data hfl head h st hline
  refine ⟨o, e1, fun j hj i hij => ?_⟩
  obtain ⟨n, hn, r, h1, h2, h3⟩ := e2 j hj i hij
  refine ⟨n, hn, r, h1, h2, fun hio => ?_⟩
  rcases h3 hio with ⟨k, other, x, hc, hk0, _, hnear, txt, note, _, hr⟩ | h4
  · refine .inl ⟨k, other, x, hc, hk0, hnear, cs!"Line out of order.  It is of type " ++
      lssToString (getLocalSubsection m o.modName data.config.orderConf (orderedNodes head)[j]) ++
      cs!" " ++ (if k > j then cs!"before" else cs!"after"), txt ++ cs!"." ++ note.getD [], ?_⟩
    rw [hr]
    simp only [List.append_assoc]
  · exact .inr h4

/-! ## Non-vacuity: the concrete file -/

/-- Check data for the concrete file. -/
def exOrderData : CheckData := ⟨cs!"foo", cs!"foo.te", .teFile, ⟨.ref, [], false, false, []⟩⟩

/-- C-001 on a list of nodes, one after the other; the line numbers and the findings. -/
def runTeOrder (m : Maps) (data : CheckData) : List Loc → OrderState →
    Res (List (Nat × Option CheckResult))
  | [], _ => .ok []
  | l :: ls, st => do
    let (st', r) ← checkTeOrder m data l st
    let rest ← runTeOrder m data ls st'
    pure ((l.info.lineno, r) :: rest)

example : (orderedNodes exTeFile).length = 6 ∧
    ∀ l ∈ orderedNodes exTeFile, l.info.lineno < 2 ^ 32 := by decide +kernel

/-- Line 2 (a rule before the declarations) is reported, nothing else. -/
example : (match runTeOrder {} exOrderData (exTeFile :: orderedNodes exTeFile) ⟨none, 0⟩ with
    | .ok l => l.map fun x => (x.1, x.2.map fun r => (r.severity, r.checkId, r.message.take 67))
    | .ub => []) =
    [(1, none), (1, none),
     (2, some ('C', 1, cs!"Line out of order.  It is of type self rule before line 3 that is a")),
     (3, none), (3, none), (4, none), (5, none)] := by decide +kernel

end Selint
