import Verif.Lemmas.Ordering
/-!
# C31, C32: comparing two lines

C31 — for any two te-file lines at least one relative order is accepted.
C32 — a line's ordering context is its outermost conditional block.
-/

namespace Selint

open Spec

/-! ## C32 -/

theorem isOptionalLoop_eq (ret : Bool) (fs : List NodeFlavor) :
    isOptionalLoop ret fs =
      match (fs.filterMap conditionalOf).getLast? with
      | some k => decide (k = .optional)
      | none => ret := by
  induction fs generalizing ret with
  | nil => rfl
  | cons f fs ih =>
    rw [isOptionalLoop, ih]
    rw [List.filterMap_cons]
    generalize fs.filterMap conditionalOf = ks
    cases h : ks.getLast? <;> cases f <;> simp [conditionalOf, List.getLast?_cons, h]

theorem isBooleanLoop_eq (ret : Bool) (fs : List NodeFlavor) :
    isBooleanLoop ret fs =
      match (fs.filterMap conditionalOf).getLast? with
      | some k => decide (k = .boolean)
      | none => ret := by
  induction fs generalizing ret with
  | nil => rfl
  | cons f fs ih =>
    rw [isBooleanLoop, ih]
    rw [List.filterMap_cons]
    generalize fs.filterMap conditionalOf = ks
    cases h : ks.getLast? <;> cases f <;> simp [conditionalOf, List.getLast?_cons, h]

theorem isTunableLoop_eq (ret : Bool) (fs : List NodeFlavor) :
    isTunableLoop ret fs =
      match (fs.filterMap conditionalOf).getLast? with
      | some k => decide (k = .tunable)
      | none => ret := by
  induction fs generalizing ret with
  | nil => rfl
  | cons f fs ih =>
    rw [isTunableLoop, ih]
    rw [List.filterMap_cons]
    generalize fs.filterMap conditionalOf = ks
    cases h : ks.getLast? <;> cases f <;> simp [conditionalOf, List.getLast?_cons, h]

theorem isInIfdefLoop_eq (ret : Bool) (fs : List NodeFlavor) :
    isInIfdefLoop ret fs =
      match (fs.filterMap conditionalOf).getLast? with
      | some k => decide (k = .buildOption)
      | none => ret := by
  induction fs generalizing ret with
  | nil => rfl
  | cons f fs ih =>
    rw [isInIfdefLoop, ih]
    rw [List.filterMap_cons]
    generalize fs.filterMap conditionalOf = ks
    cases h : ks.getLast? <;> cases f <;> simp [conditionalOf, List.getLast?_cons, h]

/-- **C32.** Each of the four tests looks at the outermost conditional block around (or at)
the node, and at nothing else. -/
theorem C32_outermost_decides (l : Loc) :
    (isOptional l = true ↔ outermost l = some .optional) ∧
    (isBoolean l = true ↔ outermost l = some .boolean) ∧
    (isTunable l = true ↔ outermost l = some .tunable) ∧
    (isInIfdef l = true ↔ outermost l = some .buildOption) := by
  unfold isOptional isBoolean isTunable isInIfdef
  rw [isOptionalLoop_eq, isBooleanLoop_eq, isTunableLoop_eq, isInIfdefLoop_eq]
  have e : outermost l = (l.chain.filterMap conditionalOf).getLast? := rfl
  rw [e]
  cases (l.chain.filterMap conditionalOf).getLast? with
  | none => simp
  | some k => cases k <;> simp

/-- The subsection that stands for a kind of conditional block. -/
def Spec.lssOf : Conditional → Lss
  | .optional => .optional
  | .boolean => .boolean
  | .tunable => .tunable
  | .buildOption => .buildOption

/-- **C32.** The subsection of a node inside conditional blocks is the one of the outermost
block, in every variant; a node outside of all of them is in none of these subsections. -/
theorem C32_subsection (m : Maps) (mod : Str) (v : OrderConf) (l : Loc) :
    (∀ k, outermost l = some k → getLocalSubsection m mod v l = lssOf k) ∧
    (outermost l = none → ∀ k, getLocalSubsection m mod v l ≠ lssOf k) := by
  obtain ⟨h1, h2, h3, h4⟩ := C32_outermost_decides l
  have b1 : isOptional l = decide (outermost l = some .optional) := by
    rw [Bool.eq_iff_iff, h1]; simp
  have b2 : isBoolean l = decide (outermost l = some .boolean) := by
    rw [Bool.eq_iff_iff, h2]; simp
  have b3 : isTunable l = decide (outermost l = some .tunable) := by
    rw [Bool.eq_iff_iff, h3]; simp
  have b4 : isInIfdef l = decide (outermost l = some .buildOption) := by
    rw [Bool.eq_iff_iff, h4]; simp
  constructor
  · intro k hk
    unfold getLocalSubsection
    rw [b1, b2, b3, b4, hk]
    cases k <;> simp [lssOf]
  · intro hn k
    unfold getLocalSubsection
    rw [b1, b2, b3, b4, hn]
    simp only [reduceCtorEq, decide_false, Bool.false_eq_true, if_false]
    repeat' split
    all_goals (cases k <;> simp [lssOf])

/-- Non-vacuity: a call in a boolean block in an optional block, itself in an `ifdef`. -/
example :
    let fr := fun f => (⟨[], ⟨.plain f none, none, 0⟩, []⟩ : Frame)
    let call : Tree := .mk ⟨.ifCall ⟨cs!"foo", []⟩, none, 7⟩ []
    outermost ⟨call, [], [], [fr .booleanPolicy, fr .optionalPolicy, fr .ifdef]⟩
        = some .buildOption ∧
      outermost ⟨call, [], [], [fr .booleanPolicy, fr .optionalPolicy]⟩ = some .optional ∧
      outermost ⟨call, [], [], []⟩ = none := by decide

/-! ## C31 -/

theorem strncmpEq_symm (a b : Str) (n : Nat) : strncmpEq a b n = strncmpEq b a n := by
  simp only [strncmpEq]
  rw [Bool.eq_iff_iff]
  simp only [beq_iff_eq]
  exact eq_comm

theorem isSameSection_symm (a b : Str) : isSameSection a b = isSameSection b a := by
  unfold isSameSection
  rw [strncmpEq_symm]
  congr 1
  split <;> split <;> omega

theorem compareSections_not_both {secs : List SectionData} {s1 s2 : Str} {x y : Int}
    (hx : compareSections secs s1 s2 = .ok x) (hy : compareSections secs s2 s1 = .ok y) :
    0 ≤ x ∨ 0 ≤ y := by
  unfold compareSections at hx hy
  by_cases h1 : strcmp s1 secDeclaration ≠ 0
  · by_cases h2 : strcmp s2 secDeclaration ≠ 0
    · rw [if_pos h1] at hx
      rw [if_pos h2] at hy
      rw [if_neg h2] at hx
      rw [if_neg h1] at hy
      cases e1 : getAvgLineByName s1 secs with
      | ub => simp [e1] at hx
      | ok a1 =>
        cases e2 : getAvgLineByName s2 secs with
        | ub => simp [e1, e2] at hx
        | ok a2 =>
          simp only [e1, e2, Res.bind_ok, Res.pure_eq] at hx hy
          split at hx
          · rename_i hc1
            split at hy
            · rename_i hc2
              simp only [Bool.and_eq_true, decide_eq_true_eq] at hc1 hc2
              exact absurd hc1.1 (Rat.not_lt.2 (Rat.le_of_lt hc2.1))
            · cases hy; right; decide
          · cases hx; left; decide
    · rw [if_neg h2] at hy
      cases hy; right; decide
  · rw [if_neg h1] at hx
    cases hx; left; decide

theorem checkOrdering_swap {α : Type} [DecidableEq α] (a b : α) (h : a ≠ b) (r : Int)
    (ls : List α) : checkOrdering b a r ls = (checkOrdering a b r ls).map (- ·) := by
  induction ls with
  | nil => rfl
  | cons c cs ih =>
    simp only [checkOrdering]
    by_cases h1 : a = c
    · subst h1
      rw [if_neg (Ne.symm h)]
      simp
    · by_cases h2 : b = c
      · simp [h1, h2]
      · simp only [h1, h2, if_false]; exact ih

theorem compareDeclarations_swap (a b : Loc) :
    compareDeclarations b a = - compareDeclarations a b := by
  unfold compareDeclarations
  cases ha : a.data <;> cases hb : b.data <;> try rfl
  rename_i d1 d2
  dsimp only
  by_cases h : d1.flavor = d2.flavor
  · simp [h, orderEqual]
  · rw [if_pos (Ne.symm h), if_pos h, checkOrdering_swap _ _ h]
    cases checkOrdering d1.flavor d2.flavor orderDeclSubsection [.bool, .attribute] <;>
      simp [orderEqual]

theorem compareDeclarations_neg {a b : Loc} (h : compareDeclarations a b < 0) :
    b.flavor = .decl := by
  unfold compareDeclarations at h
  split at h
  · rename_i d1 d2 h1 h2
    show b.data.flavor = _
    rw [h2]; rfl
  · exact absurd h (by decide)

theorem getSection_decl (m : Maps) {l : Loc} (h : l.flavor = .decl) :
    getSection m l = .ok (some secNonOrdered) ∨ getSection m l = .ok (some secDeclaration) := by
  have hp : l.fuel = (l.fuel - 1) + 1 := by
    have := Tree.size_pos l.focus; simp only [Loc.fuel]; omega
  have e3 : l.flavor = l.data.flavor := rfl
  rw [e3] at h
  unfold getSection
  rw [hp]
  unfold getSectionF
  revert h
  generalize l.data = dd
  intro h
  cases dd with
  | decl d => dsimp only; split <;> simp
  | plain f s => cases f <;> simp [NodeData.flavor, PlainFlavor.toFlavor] at h
  | attr d =>
    simp only [NodeData.flavor] at h
    split at h <;> simp at h
  | _ => simp [NodeData.flavor] at h

theorem alphabeticalReason_swap (m : Maps) (a b : Loc) :
    alphabeticalReason m b a = (alphabeticalReason m a b).map (- ·) := by
  unfold alphabeticalReason
  cases calledModule m a with
  | none => cases calledModule m b <;> rfl
  | some x =>
    cases calledModule m b with
    | none => rfl
    | some y =>
      dsimp only
      have := strcmp_antisymm x y
      by_cases h1 : strcmp x y < 0
      · rw [if_neg (by omega), if_pos (by omega), if_pos h1]; rfl
      · by_cases h2 : strcmp x y > 0
        · rw [if_pos (by omega), if_neg h1, if_pos h2]; simp
        · rw [if_neg (by omega), if_neg (by omega), if_neg h1, if_neg h2]; rfl

theorem alphabeticalGuard_swap {l1 l2 : Lss} {a b : Loc} {g1 g2 : Bool}
    (h : l1 = l2 ∨ (l1 ∉ [Lss.buildOption, .boolean, .tunable, .optional] ∧
      l2 ∉ [Lss.buildOption, .boolean, .tunable, .optional]))
    (e1 : alphabeticalGuard l1 l2 a b = .ok g1) (e2 : alphabeticalGuard l2 l1 b a = .ok g2) :
    g1 = g2 := by
  have hcomm : ∀ g : Bool, (g && decide (a.flavor = .ifCall) && decide (b.flavor = .ifCall)) =
      (g && decide (b.flavor = .ifCall) && decide (a.flavor = .ifCall)) := by
    intro g; cases g <;> simp [Bool.and_comm]
  unfold alphabeticalGuard at e1 e2
  rcases h with rfl | ⟨h1, h2⟩
  · split at e1
    · rename_i hc; rw [if_pos hc] at e2; cases e1; cases e2; rfl
    · rename_i hc
      rw [if_neg hc] at e2
      by_cases ho : l1 = .optional
      · subst ho
        cases pa : prevIsStartBlock a with
        | ub => simp [pa] at e1
        | ok ra =>
          cases pb : prevIsStartBlock b with
          | ub => simp [pb] at e2
          | ok rb =>
            simp only [pa, pb, Res.bind_ok, Res.pure_eq] at e1 e2
            cases ra <;> cases rb <;> simp at e1 e2 <;> subst e1 <;> subst e2 <;>
              first | rfl | exact Bool.and_comm _ _
      · simp [ho] at e1 e2
        rw [← e1, ← e2, Bool.and_comm]
  · simp only [List.mem_cons, List.not_mem_nil, or_false, not_or] at h1 h2
    simp only [h1, h2, or_self, if_false, ne_eq, not_false_eq_true, if_true, Res.pure_eq,
      Res.bind_ok] at e1 e2
    cases e1; cases e2
    rw [hcomm]

theorem checkOrdering_none {α : Type} [DecidableEq α] {a b : α} {r : Int} {ls : List α}
    (h : checkOrdering a b r ls = none) : a ∉ ls ∧ b ∉ ls := by
  induction ls with
  | nil => simp
  | cons c cs ih =>
    simp only [checkOrdering] at h
    split at h
    · cases h
    · split at h
      · cases h
      · have := ih h
        simp_all

/-- **C31.** For any two nodes, in every variant and for all section statistics: if both
comparisons finish, at least one relative order is accepted — unless a node has no section
at all, in which case both comparisons report an error. -/
theorem C31_not_both_rejected (m : Maps) (secs : List SectionData) (mod : Str) (v : OrderConf)
    (a b : Loc) (x y : Int) (hx : compareNodes m secs mod v a b = .ok x)
    (hy : compareNodes m secs mod v b a = .ok y) :
    0 ≤ x ∨ 0 ≤ y ∨ (x = orderingError ∧ y = orderingError) := by
  generalize hf : a.focus.size = f
  induction f using Nat.strongRecOn generalizing a b with
  | _ f ih =>
  subst hf
  rw [compareNodes_eq] at hx hy
  unfold compareStep at hx hy
  cases e1 : getSection m a with
  | ub => simp [e1] at hx
  | ok o1 =>
  cases e2 : getSection m b with
  | ub => simp [e2] at hy
  | ok o2 =>
  simp only [e1, e2, Res.bind_ok] at hx hy
  cases o1 with
  | none => cases o2 <;> (cases hx; cases hy; exact .inr (.inr ⟨rfl, rfl⟩))
  | some s1 =>
  cases o2 with
  | none => cases hx; cases hy; exact .inr (.inr ⟨rfl, rfl⟩)
  | some s2 =>
  dsimp only at hx hy
  by_cases hno : strcmp s1 secNonOrdered = 0 ∨ strcmp s2 secNonOrdered = 0
  · rw [if_pos hno] at hx
    cases hx; left; decide
  · rw [if_neg hno] at hx
    rw [if_neg (by rw [or_comm]; exact hno)] at hy
    rw [isSameSection_symm s2 s1] at hy
    by_cases hss : isSameSection s1 s2 = true
    · simp only [hss, Bool.not_true, Bool.false_eq_true, if_false] at hx hy
      by_cases hd1 : strcmp s1 secDeclaration = 0
      · rw [if_pos hd1] at hx
        cases hx
        by_cases hneg : compareDeclarations a b < 0
        · have hb := getSection_decl m (compareDeclarations_neg hneg)
          rw [e2] at hb
          have hs2 : s2 = secDeclaration := by
            rcases hb with h | h
            · cases h; exact absurd (.inr (by simp)) hno
            · cases h; rfl
          rw [hs2] at hy
          simp only [strcmp_self, if_true, Res.pure_eq] at hy
          cases hy
          have := compareDeclarations_swap a b
          right; left; omega
        · left; omega
      · rw [if_neg hd1] at hx
        by_cases hd2 : strcmp s2 secDeclaration = 0
        · rw [if_pos hd2] at hy
          cases hy
          by_cases hneg : compareDeclarations b a < 0
          · have hb := getSection_decl m (compareDeclarations_neg hneg)
            rw [e1] at hb
            rcases hb with h | h
            · cases h; exact absurd (.inl (by simp)) hno
            · cases h; exact absurd (by simp) hd1
          · right; left; omega
        · rw [if_neg hd2] at hy
          unfold compareLocal at hx hy
          dsimp only at hx hy
          generalize getLocalSubsection m mod v a = l1 at hx hy
          generalize getLocalSubsection m mod v b = l2 at hx hy
          by_cases hu : l1 = .unknown ∨ l2 = .unknown
          · rw [if_pos hu] at hx; cases hx; left; decide
          · rw [if_neg hu] at hx
            rw [if_neg (by rw [or_comm]; exact hu)] at hy
            have hsw : (if l2 ≠ l1 then checkOrdering l2 l1 orderLocalSubsection (lssOrder v)
                else none) = (if l1 ≠ l2 then checkOrdering l1 l2 orderLocalSubsection (lssOrder v)
                else none).map (- ·) := by
              by_cases h : l1 = l2
              · simp [h]
              · rw [if_pos (Ne.symm h), if_pos h, checkOrdering_swap _ _ h]
            rw [hsw] at hy
            cases hco : (if l1 ≠ l2 then checkOrdering l1 l2 orderLocalSubsection (lssOrder v)
                else none) with
            | some r =>
              simp only [hco, Option.map_some, Res.pure_eq, Res.ok.injEq] at hx hy
              omega
            | none =>
              simp only [hco, Option.map_none] at hx hy
              by_cases hv : v = .ref ∨ v = .light
              · rw [if_pos hv] at hx hy
                have hguard : l1 = l2 ∨ (l1 ∉ [Lss.buildOption, .boolean, .tunable, .optional] ∧
                    l2 ∉ [Lss.buildOption, .boolean, .tunable, .optional]) := by
                  by_cases h : l1 = l2
                  · exact .inl h
                  · rw [if_pos h] at hco
                    have := checkOrdering_none hco
                    right
                    rcases hv with rfl | rfl <;> simp_all [lssOrder]
                cases eg1 : alphabeticalGuard l1 l2 a b with
                | ub => simp [eg1] at hx
                | ok g1 =>
                cases eg2 : alphabeticalGuard l2 l1 b a with
                | ub => simp [eg2] at hy
                | ok g2 =>
                have hg := alphabeticalGuard_swap hguard eg1 eg2
                subst hg
                simp only [eg1, eg2, Res.bind_ok] at hx hy
                have har : (if g1 = true then alphabeticalReason m b a else none) =
                    (if g1 = true then alphabeticalReason m a b else none).map (- ·) := by
                  cases g1
                  · rfl
                  · simp only [if_true]; exact alphabeticalReason_swap m a b
                rw [har] at hy
                cases hr : (if g1 = true then alphabeticalReason m a b else none) with
                | some r =>
                  simp only [hr, Option.map_some, Res.pure_eq, Res.ok.injEq] at hx hy
                  omega
                | none =>
                  simp only [hr, Option.map_none] at hx hy
                  by_cases ho : l1 = .optional ∧ l2 = .optional
                  · rw [if_pos ho] at hx
                    rw [if_pos ho.symm] at hy
                    cases hsa : secondChild a with
                    | none =>
                      simp only [hsa] at hx
                      cases hx; left; decide
                    | some a' =>
                      cases hsb : secondChild b with
                      | none =>
                        simp only [hsa, hsb] at hx
                        cases hx; left; decide
                      | some b' =>
                        simp only [hsa, hsb] at hx hy
                        exact ih _ (size_firstChild_next hsa) a' b' hx hy rfl
                  · rw [if_neg ho] at hx; cases hx; left; decide
              · rw [if_neg hv] at hx; cases hx; left; decide
    · simp only [Bool.not_eq_true] at hss
      simp only [hss, Bool.not_false, if_true] at hx hy
      rcases compareSections_not_both hx hy with h | h
      · exact .inl h
      · exact .inr (.inl h)

/-- **C31.** For any two statements of a parsed te file: both comparisons are defined and at
least one of the two orders is accepted. -/
theorem C31_te_file (m : Maps) (secs : List SectionData) (hsecs : secs ≠ []) (mod : Str)
    (v : OrderConf) (head a b : Loc) (h : TeFile head) (ha : a ∈ orderedNodes head)
    (hb : b ∈ orderedNodes head) :
    ∃ x y, compareNodes m secs mod v a b = .ok x ∧ compareNodes m secs mod v b a = .ok y ∧
      (0 ≤ x ∨ 0 ≤ y) := by
  simp only [orderedNodes, List.mem_filter, decide_eq_true_eq] at ha hb
  obtain ⟨x, hx, hx'⟩ := compareNodes_ok m secs mod v hsecs a b (h.nodes a ha.1) (h.nodes b hb.1)
    ha.2 hb.2
  obtain ⟨y, hy, hy'⟩ := compareNodes_ok m secs mod v hsecs b a (h.nodes b hb.1) (h.nodes a ha.1)
    hb.2 ha.2
  refine ⟨x, y, hx, hy, ?_⟩
  rcases C31_not_both_rejected m secs mod v a b x y hx hy with h | h | h
  · exact .inl h
  · exact .inr h
  · exact absurd h.1 hx'

end Selint
