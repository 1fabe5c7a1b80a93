import Verif.Lemmas.Single
import Verif.Props.Sections
/-!
# C99: the average line of a section
-/

namespace Selint
open Spec

theorem rat_frac {x : Rat} (h : 0 ≤ x) : x = (x.num.toNat : Rat) / (x.den : Rat) := by
  have h1 := Rat.num_nonneg.2 h
  conv => lhs; rw [← Rat.num_divInt_den x, Rat.divInt_eq_div]
  rw [← Rat.intCast_natCast, ← Rat.intCast_natCast, show ((x.num.toNat : Nat) : Int) = x.num by omega]

/-- Every quotient of numbers that are not negative is rounded as IEEE 754 says, and there is only
one number that it can be rounded to. -/
theorem C99_rounding (p q : Nat) (hq : 0 < q) (x : Rat) :
    RoundsTo ((p : Rat) / q) x ↔ x = f32 p q :=
  ⟨fun h => h.unique (f32_rounds hq), fun h => h ▸ f32_rounds hq⟩

theorem f32_nat_pos {n : Nat} (h : 0 < n) : 0 < f32 n 1 := by
  have h1 := (f32_rounds (p := n) (by decide : 0 < 1)).close
  have h2 := (f32_rounds (p := n) (by decide : 0 < 1)).single.nonneg
  have e : (n : Rat) / ((1 : Nat) : Rat) = n := by
    rw [show ((1 : Nat) : Rat) = 1 from rfl]; grind
  have hn : (0 : Rat) < n := by have := Rat.natCast_lt_natCast.2 h; simpa using this
  rw [e] at h1
  have h3 := h1 hn
  have c24 : ((2 ^ 24 : Nat) : Rat) = 16777216 := rfl
  rw [c24] at h3
  unfold apart at h3
  grind

/-- The average of the lines of a section, as the program has it: the sum, kept in 32 bits, and the
number of lines are converted to single precision and divided in it. -/
theorem C99_average (lines : List Nat) (h : lines ≠ []) : ∃ sum count,
    RoundsTo ((lines.sum % 2 ^ 32 : Nat) : Rat) sum ∧ RoundsTo (lines.length : Rat) count ∧
    RoundsTo (sum / count) (average lines) := by
  have hlen : 0 < lines.length := List.length_pos_iff.2 h
  have e : ∀ n : Nat, (n : Rat) / ((1 : Nat) : Rat) = n := fun n => by
    rw [show ((1 : Nat) : Rat) = 1 from rfl]; grind
  have hs := f32_rounds (p := lines.sum % 2 ^ 32) (by decide : 0 < 1)
  have hc := f32_rounds (p := lines.length) (by decide : 0 < 1)
  have hpos := f32_nat_pos hlen
  rw [e] at hs hc
  refine ⟨_, _, hs, hc, ?_⟩
  unfold average
  rw [if_neg h]
  unfold SectionData.avg
  dsimp only
  generalize f32 (lines.sum % 2 ^ 32) 1 = a at *
  generalize f32 lines.length 1 = b at *
  have ha := rat_frac hs.single.nonneg
  have hb := rat_frac hc.single.nonneg
  have hbn : 0 < b.num.toNat := by
    have h1 := Rat.num_nonneg.2 (Rat.le_of_lt hpos)
    have h2 : b.num ≠ 0 := fun e => by rw [Rat.num_eq_zero] at e; grind
    omega
  have hq : 0 < a.den * b.num.toNat := Nat.mul_pos a.den_pos hbn
  have : a / b = ((a.num.toNat * b.den : Nat) : Rat) / ((a.den * b.num.toNat : Nat) : Rat) := by
    conv => lhs; rw [ha, hb]
    rw [Rat.natCast_mul, Rat.natCast_mul]
    have d1 : (0 : Rat) < a.den := by have := Rat.natCast_lt_natCast.2 a.den_pos; simpa using this
    have d2 : (0 : Rat) < b.den := by have := Rat.natCast_lt_natCast.2 b.den_pos; simpa using this
    have d3 : (0 : Rat) < b.num.toNat := by have := Rat.natCast_lt_natCast.2 hbn; simpa using this
    rw [Rat.div_def, Rat.div_def, Rat.div_def, Rat.div_def, Rat.inv_mul_rev, Rat.inv_mul_rev, Rat.inv_inv]
    grind
  rw [this]
  exact f32_rounds hq

theorem apart_self (x : Rat) : apart x x = 0 := by unfold apart; grind

theorem apart_nonneg (x y : Rat) : 0 ≤ apart x y := by unfold apart; grind

/-- Numbers of 24 bits need no rounding. -/
theorem rounds_self {n : Nat} (h : n < 2 ^ 24) : RoundsTo (n : Rat) n := by
  refine ⟨⟨n, 0, h, by rw [Rat.zpow_zero, Rat.mul_one]⟩, ?_, ?_⟩
  · intro y _; rw [apart_self]; exact apart_nonneg _ _
  · intro y _ hne e
    rw [apart_self] at e
    unfold apart at e
    grind

theorem length_le_sum {l : List Nat} (h : ∀ n ∈ l, 0 < n) : l.length ≤ l.sum := by
  induction l with
  | nil => simp
  | cons a l ih =>
    have := h a (by simp)
    have := ih fun n hn => h n (by simp [hn])
    simp only [List.length_cons, List.sum_cons]
    omega

/-- Unless the line numbers add up to 2^24 or more, the average is the mean line, rounded. -/
theorem C99_exact (lines : List Nat) (h : lines ≠ []) (h0 : ∀ n ∈ lines, 0 < n)
    (hsum : lines.sum < 2 ^ 24) : RoundsTo (mean lines) (average lines) := by
  obtain ⟨sum, count, h1, h2, h3⟩ := C99_average lines h
  have hlen := length_le_sum h0
  rw [Nat.mod_eq_of_lt (by omega)] at h1
  rw [h1.unique (rounds_self hsum), h2.unique (rounds_self (by omega))] at h3
  exact h3

/-- What comes first by the averages of the program does so by the means. -/
theorem C99_order (a b : List Nat) (ha : a ≠ []) (hb : b ≠ []) (ha0 : ∀ n ∈ a, 0 < n)
    (hb0 : ∀ n ∈ b, 0 < n) (has : a.sum < 2 ^ 24) (hbs : b.sum < 2 ^ 24)
    (h : average a < average b) : mean a < mean b := by
  apply Rat.not_le.1
  intro hc
  have := (C99_exact b hb hb0 hbs).mono (C99_exact a ha ha0 has) hc
  grind

theorem mean_pos {l : List Nat} (h : l ≠ []) (h0 : ∀ n ∈ l, 0 < n) : 0 < mean l := by
  have h1 : 0 < l.length := List.length_pos_iff.2 h
  have h2 := length_le_sum h0
  have d1 : (0 : Rat) < l.length := by have := Rat.natCast_lt_natCast.2 h1; simpa using this
  have d2 : (0 : Rat) < (l.sum : Nat) := by
    have := Rat.natCast_lt_natCast.2 (by omega : 0 < l.sum); simpa using this
  unfold mean
  rw [Rat.div_def]
  exact Rat.mul_pos d2 (Rat.inv_pos.2 d1)

/-- What comes first by the means does so by the averages of the program, unless the means differ
by less than one part in 2^22. -/
theorem C99_far (a b : List Nat) (ha : a ≠ []) (hb : b ≠ []) (ha0 : ∀ n ∈ a, 0 < n)
    (hb0 : ∀ n ∈ b, 0 < n) (has : a.sum < 2 ^ 24) (hbs : b.sum < 2 ^ 24)
    (h : mean a + mean a / 2 ^ 22 ≤ mean b) : average a < average b := by
  have pa := mean_pos ha ha0
  have pb := mean_pos hb hb0
  have h1 := (C99_exact a ha ha0 has).close pa
  have h2 := (C99_exact b hb hb0 hbs).close pb
  have c22 : (2 : Rat) ^ 22 = 4194304 := by rfl
  have c24 : ((2 ^ 24 : Nat) : Rat) = 16777216 := rfl
  rw [c22] at h
  rw [c24] at h1 h2
  generalize mean a = x at *
  generalize mean b = y at *
  unfold apart at h1 h2
  grind

/-- With very large line numbers the sum does not fit: lines may have a smaller average than lines
that all stand before them. -/
theorem C99_wraps : ∃ a b : List Nat, a ≠ [] ∧ b ≠ [] ∧ (∀ x ∈ a, ∀ y ∈ b, y < x ∧ x < 2 ^ 32) ∧
    average a < average b :=
  ⟨[2 ^ 31, 2 ^ 31], [1], by decide, by decide, by decide, by decide +kernel⟩

/-! ## C-001 -/

theorem average_empty : average [] = -1 := rfl

theorem average_nonneg {l : List Nat} (h : l ≠ []) : 0 ≤ average l := by
  obtain ⟨_, _, _, _, h3⟩ := C99_average l h
  exact h3.single.nonneg

/-- Of two lines that belong to different types, the one that stands first is wrong only if its
type comes later by the alphabet and by the mean line of the statements about it; if it does so
clearly, it is wrong. -/
theorem C99_types (m : Maps) (data : CheckData) (hfl : data.flavor = .teFile) (head : Loc)
    (h : TeFile head) (st : OrderState) (hline : ∀ l ∈ orderingNodes head, l.info.lineno < 2 ^ 32)
    (h0 : ∀ l ∈ orderingNodes head, 0 < l.info.lineno) :
    ∃ o, checkTeOrder m data head st = .ok (⟨some o, 0⟩, none) ∧
      ∀ a ∈ orderedNodes head, ∀ b ∈ orderedNodes head, ∀ s t, InSection m a (.of s) →
        InSection m b (.of t) → ¬SameName s t →
        ∀ ls, ls = sectionLines m head (.of s) → ls.sum < 2 ^ 24 →
        ∀ lt, lt = sectionLines m head (.of t) → lt.sum < 2 ^ 24 →
        ∃ x, compareNodes m o.sections o.modName data.config.orderConf a b = .ok x ∧
          (x < 0 → t < s ∧ mean lt < mean ls) ∧
          (t < s → mean lt + mean lt / 2 ^ 22 ≤ mean ls → x = -1) := by
  obtain ⟨o, ho, hall⟩ := C83_order m data hfl head h st hline
  refine ⟨o, ho, ?_⟩
  intro a ha b hb s t hs ht hne ls hls hlss lt hlt hlts
  obtain ⟨x, hx, hr, hneg⟩ := hall a ha b hb
  have mem : ∀ l ∈ orderedNodes head, l ∈ orderingNodes head := fun l hl => (List.mem_filter.1 hl).1
  have shaped : ∀ l ∈ orderedNodes head, ShapedLoc l := fun l hl => h.nodes l (mem l hl)
  have pos : ∀ sec, ∀ n ∈ sectionLines m head sec, 0 < n := by
    intro sec n hn
    obtain ⟨l, hl, rfl⟩ := List.mem_map.1 hn
    exact h0 l (List.mem_filter.1 hl).1
  have ne : ∀ l ∈ orderedNodes head, ∀ sec, InSection m l sec → sectionLines m head sec ≠ [] := by
    intro l hl sec hsec hc
    have : l.info.lineno ∈ sectionLines m head sec :=
      List.mem_map_of_mem (List.mem_filter.2 ⟨mem l hl, by simpa using hsec⟩)
    rw [hc] at this
    cases this
  refine ⟨x, hx, ?_, ?_⟩
  · intro hx0
    obtain ⟨r, hw⟩ := hneg.1 hx0
    have same : ∀ {s' t'}, InSection m a (.of s') → InSection m b (.of t') → s' = s ∧ t' = t := by
      intro s' t' h1 h2
      have := section_unique (shaped a ha) h1 hs
      have := section_unique (shaped b hb) h2 ht
      simp_all
    cases hw with
    | declarations _ h2 => have := section_unique (shaped b hb) h2 ht; cases this
    | «section» h1 h2 _ h4 h5 =>
      obtain ⟨rfl, rfl⟩ := same h1 h2
      refine ⟨h5, ?_⟩
      subst hls hlt
      exact C99_order _ _ (ne b hb _ ht) (ne a ha _ hs) (pos _) (pos _) hlts hlss h4
    | bool h1 => have := section_unique (shaped a ha) h1 hs; cases this
    | «attribute» h1 => have := section_unique (shaped a ha) h1 hs; cases this
    | subsection h1 h2 h3 => obtain ⟨rfl, rfl⟩ := same h1 h2; exact absurd h3 hne
    | alphabetical h1 h2 h3 => obtain ⟨rfl, rfl⟩ := same h1 h2; exact absurd h3 hne
    | blocks h1 h2 h3 => obtain ⟨rfl, rfl⟩ := same h1 h2; exact absurd h3 hne
  · intro hst hm
    subst hls hlt
    exact (hr .section).2 (.section hs ht hne
      (C99_far _ _ (ne b hb _ ht) (ne a ha _ hs) (pos _) (pos _) hlts hlss hm) hst)

/-! ## Non-vacuity -/

/-- Exact, rounded, and ties in both directions. -/
example : average [10, 11] = 21 / 2 ∧ average [1, 1, 2] = 11184811 / 8388608 ∧
    f32 (2 ^ 24 + 1) 1 = 2 ^ 24 ∧ f32 (2 ^ 24 + 3) 1 = 2 ^ 24 + 4 := by decide +kernel

/-- A file with a line about `foo_t` before, and one after, a line about `bar_t`. -/
def exTypesFile : Loc :=
  ⟨exTeNode 1 (.plain .teFile none), [],
    [exTeNode 1 (.header ⟨.macro, cs!"foo"⟩),
     exTeNode 2 (.av ⟨.allow, [cs!"foo_t"], [cs!"self"], [cs!"process"], [cs!"signal"]⟩),
     exTeNode 3 (.av ⟨.allow, [cs!"bar_t"], [cs!"self"], [cs!"process"], [cs!"signal"]⟩),
     exTeNode 5 (.av ⟨.allow, [cs!"foo_t"], [cs!"foo_t"], [cs!"file"], [cs!"read"]⟩)], []⟩

theorem exTypesFile_is_te_file : TeFile exTypesFile where
  flavor := rfl
  top := rfl
  childless := rfl
  nonempty := by simp [exTypesFile]
  shaped := by
    simp [exTypesFile, exTeNode, ShapedList, Shaped, NodeShaped, isConditional, conditionalOf,
      hasAliases, RuleShaped, OrdinaryFirst, NodeInfo.flavor, NodeData.flavor, PlainFlavor.toFlavor]
  noMarker := by
    simp [exTypesFile, exTeNode, NodeInfo.flavor, NodeData.flavor, PlainFlavor.toFlavor]

example : TeFile exTypesFile ∧ exOrderData.flavor = .teFile ∧
    (∀ l ∈ orderingNodes exTypesFile, l.info.lineno < 2 ^ 32) ∧
    ∀ l ∈ orderingNodes exTypesFile, 0 < l.info.lineno :=
  ⟨exTypesFile_is_te_file, rfl, by decide +kernel, by decide +kernel⟩

/-- The sections of the two lines that are compared. -/
example (a b : Loc) (ha : (orderedNodes exTypesFile)[1]? = some a)
    (hb : (orderedNodes exTypesFile)[2]? = some b) :
    InSection {} a (.of cs!"foo_t") ∧ InSection {} b (.of cs!"bar_t") ∧
    ¬SameName cs!"foo_t" cs!"bar_t" := by
  have da : (orderedNodes exTypesFile)[1]?.map Loc.data =
      some (.av ⟨.allow, [cs!"foo_t"], [cs!"self"], [cs!"process"], [cs!"signal"]⟩) := by decide +kernel
  have db : (orderedNodes exTypesFile)[2]?.map Loc.data =
      some (.av ⟨.allow, [cs!"bar_t"], [cs!"self"], [cs!"process"], [cs!"signal"]⟩) := by decide +kernel
  rw [ha] at da
  rw [hb] at db
  simp only [Option.map_some, Option.some.injEq] at da db
  exact ⟨.rule (.inl da) (by simp [FreeRule]) rfl, .rule (.inl db) (by simp [FreeRule]) rfl,
    fun h => absurd h.1 (by decide)⟩

/-- The averages are 3.5 and 3: the first of them is wrong. -/
example : (match prepareOrderingMetadata {} exOrderData exTypesFile with
    | .ok (some o) => o.sections.map fun s => (s.name, s.avg)
    | _ => []) = [(cs!"_non_ordered", 1), (cs!"foo_t", 7 / 2), (cs!"bar_t", 3)] := by decide +kernel

example : (match runTeOrder {} exOrderData (exTypesFile :: orderedNodes exTypesFile) ⟨none, 0⟩ with
    | .ok l => l.map fun x => (x.1, x.2.isSome)
    | .ub => []) = [(1, false), (1, false), (2, true), (3, false), (5, false)] := by decide +kernel

end Selint
