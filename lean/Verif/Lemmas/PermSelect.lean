import Verif.Props.PermMask
/-! # Lemmas about macro lists, selection and messages -/

namespace Selint
open Spec

/-! ## From bits to names -/

theorem iff_of_not {a b : Prop} (h : ¬a ↔ ¬b) : a ↔ b := by
  by_cases ha : a <;> by_cases hb : b <;> simp_all

theorem and_ne_zero {a b : Mask} : a &&& b ≠ 0 ↔ ∃ i, a.getLsbD i = true ∧ b.getLsbD i = true := by
  constructor
  · intro h
    apply Classical.byContradiction
    intro hn
    apply h
    apply BitVec.eq_of_getLsbD_eq
    intro i _
    have : ¬(a.getLsbD i = true ∧ b.getLsbD i = true) := fun hh => hn ⟨i, hh⟩
    rw [BitVec.getLsbD_and]
    simpa using this
  · rintro ⟨i, h1, h2⟩ h
    have := congrArg (fun x => BitVec.getLsbD x i) h
    simp [h1, h2] at this

theorem and_not_eq_zero {a b : Mask} : a &&& ~~~b = 0 ↔ ∀ i, a.getLsbD i = true → b.getLsbD i = true := by
  apply iff_of_not
  rw [show (¬(a &&& ~~~b = 0)) = (a &&& ~~~b ≠ 0) from rfl, and_ne_zero]
  constructor
  · rintro ⟨i, h1, h2⟩ h
    rw [BitVec.getLsbD_not] at h2
    simp [h i h1] at h2
  · intro h
    apply Classical.byContradiction
    intro hn
    apply h
    intro i hi
    apply Classical.byContradiction
    intro hb
    apply hn
    refine ⟨i, hi, ?_⟩
    rw [BitVec.getLsbD_not]
    simp only [Bool.not_eq_true] at hb
    rw [hb, decide_eq_true (bit_lt hi)]; rfl

theorem and_eq_left {a b : Mask} : a &&& b = a ↔ ∀ i, a.getLsbD i = true → b.getLsbD i = true := by
  constructor
  · intro h i hi
    rw [← h, BitVec.getLsbD_and] at hi
    simp at hi; exact hi.2
  · intro h
    apply BitVec.eq_of_getLsbD_eq
    intro i _
    rw [BitVec.getLsbD_and]
    cases ha : a.getLsbD i with
    | false => rfl
    | true => simp [h i ha]

/-- The mask `k` holds exactly the permissions in `S`. -/
def Holds (k : Mask) (S : Str → Prop) : Prop :=
  ∀ i, k.getLsbD i = true ↔ ∃ q, S q ∧ permBit q = i

theorem holds_covered {k : Mask} {S : Str → Prop} (h : Holds k S) {q : Str} (hq : q ∈ coveredNames) :
    k.getLsbD (permBit q) = true ↔ S q := by
  rw [h]
  constructor
  · rintro ⟨q', h1, h2⟩
    by_cases hc : q' ∈ coveredNames
    · rw [← permBit_inj q' hc q hq h2]; exact h1
    · rw [(permBit_not_covered hc).1] at h2
      exact absurd h2.symm (permBit_ne_31 q hq)
  · intro h1; exact ⟨q, h1, rfl⟩

theorem bits_of_names : ((List.range 32).filter (· ∈ coveredNames.map permBit)) =
    coveredNames.map permBit := by decide +kernel

open Classical in
theorem bitCount_names (k : Mask) (P : Str → Prop)
    (h1 : ∀ q ∈ coveredNames, k.getLsbD (permBit q) = true ↔ P q)
    (h2 : ∀ i, k.getLsbD i = true → ∃ q ∈ coveredNames, permBit q = i) :
    bitCount k = (namesWith P).length := by
  unfold bitCount namesWith
  have e1 : (List.range 32).filter (k.getLsbD ·) =
      ((List.range 32).filter (· ∈ coveredNames.map permBit)).filter (k.getLsbD ·) := by
    rw [List.filter_filter]
    apply List.filter_congr
    intro i _
    cases hk : k.getLsbD i with
    | false => rfl
    | true =>
      obtain ⟨q, hq, he⟩ := h2 i hk
      have : i ∈ coveredNames.map permBit := List.mem_map.mpr ⟨q, hq, he⟩
      simp only [this, decide_true, Bool.and_self]
  rw [e1, bits_of_names, List.filter_map, List.length_map]
  congr 1
  apply List.filter_congr
  intro q hq
  rw [Function.comp]
  rw [Bool.eq_iff_iff, h1 q hq, decide_eq_true_iff]

/-- No uncovered permission. -/
theorem no_uncovered {k : Mask} {S : Str → Prop} (h : Holds k S) :
    k &&& Pm.uncovered = 0 ↔ ∀ q, S q → q ∈ coveredNames := by
  apply iff_of_not
  rw [show (¬(k &&& Pm.uncovered = 0)) = (k &&& Pm.uncovered ≠ 0) from rfl, and_ne_zero]
  constructor
  · rintro ⟨i, h1, h2⟩ hn
    rw [uncovered_bit] at h2
    have h2 := of_decide_eq_true h2
    subst h2
    obtain ⟨q, h3, h4⟩ := (h 31).mp h1
    exact permBit_ne_31 q (hn q h3) h4
  · intro hn
    apply Classical.byContradiction
    intro hno
    apply hn
    intro q hq
    apply Classical.byContradiction
    intro hc
    exact hno ⟨31, (h 31).mpr ⟨q, hq, (permBit_not_covered hc).1⟩, by rw [uncovered_bit]; simp⟩

theorem bitCount_and {k r : Mask} {S T : Str → Prop} (hk : Holds k S) (hr : Holds r T)
    (hc : ∀ q, S q → q ∈ coveredNames) :
    bitCount (k &&& r) = (namesWith fun q => S q ∧ T q).length := by
  apply bitCount_names
  · intro q hq
    rw [BitVec.getLsbD_and, Bool.and_eq_true, holds_covered hk hq, holds_covered hr hq]
  · intro i hi
    rw [BitVec.getLsbD_and, Bool.and_eq_true] at hi
    obtain ⟨q, h1, h2⟩ := (hk i).mp hi.1
    exact ⟨q, hc q h1, h2⟩

theorem bitCount_and_not {k r : Mask} {S T : Str → Prop} (hk : Holds k S) (hr : Holds r T)
    (hc : ∀ q, S q → q ∈ coveredNames) :
    bitCount (k &&& ~~~r) = (namesWith fun q => S q ∧ ¬T q).length := by
  apply bitCount_names
  · intro q hq
    rw [BitVec.getLsbD_and, Bool.and_eq_true, holds_covered hk hq, BitVec.getLsbD_not]
    have := holds_covered hr hq
    have hl := permBit_lt q
    refine and_congr Iff.rfl ?_
    simp only [hl, decide_true, Bool.true_and, Bool.not_eq_true']
    rw [← Bool.not_eq_true, this]
  · intro i hi
    rw [BitVec.getLsbD_and, Bool.and_eq_true] at hi
    obtain ⟨q, h1, h2⟩ := (hk i).mp hi.1
    exact ⟨q, hc q h1, h2⟩

theorem filter_split_length {α : Type} (p q : α → Bool) (l : List α) :
    (l.filter fun a => p a && q a).length + (l.filter fun a => p a && !q a).length =
      (l.filter p).length := by
  induction l with
  | nil => rfl
  | cons a l ih =>
    simp only [List.filter_cons]
    cases hp : p a <;> cases hq : q a <;> simp <;> omega

theorem bitCount_split (k r : Mask) : bitCount (k &&& r) + bitCount (k &&& ~~~r) = bitCount k := by
  unfold bitCount
  rw [← filter_split_length (k.getLsbD ·) (r.getLsbD ·) (List.range 32)]
  congr 2
  · apply List.filter_congr; intro i _; simp
  · apply List.filter_congr
    intro i hi
    have := List.mem_range.mp hi
    simp [this]

/-! ## Extensions -/

theorem extends_create_write : ∀ g ∈ coveredNames,
    (cs!"create" ∈ extensions g ∨ cs!"write" ∈ extensions g) ↔
      g ∈ [cs!"create", cs!"write", cs!"add_name", cs!"remove_name"] := by decide +kernel

theorem extends_create_unlink : ∀ g ∈ coveredNames,
    (cs!"create" ∈ extensions g ∨ cs!"unlink" ∈ extensions g) ↔
      g ∈ [cs!"create", cs!"unlink", cs!"rmdir"] := by decide +kernel

/-- The extended mask holds the extensions. -/
theorem ext_covered {k : Mask} {S : Str → Prop}
    (h : ∀ i, k.getLsbD i = true ↔ ∃ q, S q ∧ ∃ x ∈ extensions q, permBit x = i) :
    Holds k (fun x => ∃ g, S g ∧ x ∈ extensions g) := by
  intro i
  rw [h]
  constructor
  · rintro ⟨g, h1, x, h2, h3⟩; exact ⟨x, ⟨g, h1, h2⟩, h3⟩
  · rintro ⟨x, ⟨g, h1, h2⟩, h3⟩; exact ⟨g, h1, x, h2, h3⟩

theorem bit_mem (q : Str) (k : Mask) (hk : ∀ i, k.getLsbD i = decide (permBit q = i)) (r : Mask) :
    r &&& k ≠ 0 ↔ r.getLsbD (permBit q) = true := by
  rw [and_ne_zero]
  constructor
  · rintro ⟨i, h1, h2⟩
    rw [hk] at h2
    rw [of_decide_eq_true h2]; exact h1
  · intro h; exact ⟨permBit q, h, by rw [hk]; simp⟩

theorem bit_spec (n : Nat) (h : n < 32) (i : Nat) : (Pm.bit n).getLsbD i = decide (n = i) := by
  unfold Pm.bit
  by_cases hi : i < 32
  · have : ∀ n < 32, ∀ i < 32, (1#32 <<< n).getLsbD i = decide (n = i) := by decide +kernel
    exact this n h i hi
  · rw [BitVec.getLsbD_of_ge _ _ (by omega)]
    have : ¬n = i := by omega
    simp [this]

theorem and_or_ne_zero (r a b : Mask) : r &&& (a ||| b) ≠ 0 ↔ r &&& a ≠ 0 ∨ r &&& b ≠ 0 := by
  simp only [and_ne_zero, BitVec.getLsbD_or, Bool.or_eq_true]
  constructor
  · rintro ⟨i, h1, h2 | h2⟩
    · exact Or.inl ⟨i, h1, h2⟩
    · exact Or.inr ⟨i, h1, h2⟩
  · rintro (⟨i, h1, h2⟩ | ⟨i, h1, h2⟩)
    · exact ⟨i, h1, Or.inl h2⟩
    · exact ⟨i, h1, Or.inr h2⟩

theorem mem_ext_not_covered {g x : Str} (hg : g ∉ coveredNames) (h : x ∈ extensions g) : x = g := by
  rw [(permBit_not_covered hg).2] at h; simpa using h

theorem covered_ext {S : Str → Prop} {a b : Str} {l : List Str}
    (hl : ∀ g ∈ coveredNames, (a ∈ extensions g ∨ b ∈ extensions g) ↔ g ∈ l)
    (hla : ∀ g ∈ l, g ∈ coveredNames) (ha : a ∈ coveredNames) (hb : b ∈ coveredNames) :
    ((∃ g, S g ∧ a ∈ extensions g) ∨ ∃ g, S g ∧ b ∈ extensions g) ↔ ∃ g ∈ l, S g := by
  constructor
  · rintro (⟨g, h1, h2⟩ | ⟨g, h1, h2⟩)
    · have : g ∈ coveredNames := by
        apply Classical.byContradiction
        intro hg; have := mem_ext_not_covered hg h2; exact hg (this ▸ ha)
      exact ⟨g, (hl g this).mp (Or.inl h2), h1⟩
    · have : g ∈ coveredNames := by
        apply Classical.byContradiction
        intro hg; have := mem_ext_not_covered hg h2; exact hg (this ▸ hb)
      exact ⟨g, (hl g this).mp (Or.inr h2), h1⟩
  · rintro ⟨g, h1, h2⟩
    rcases (hl g (hla g h1)).mpr h1 with h | h
    · exact Or.inl ⟨g, h2, h⟩
    · exact Or.inr ⟨g, h2, h⟩

theorem extendSpecial_covered {m : Maps} {ps : List Str} {k : Mask}
    (h : Holds k (fun x => ∃ g, Granted m ps g ∧ x ∈ extensions g)) :
    ∀ q ∈ coveredNames, (extendSpecial k).getLsbD (permBit q) = true ↔ Reasonable m ps q := by
  have hcr : permBit cs!"create" = 4 := by decide +kernel
  have hwr : permBit cs!"write" = 3 := by decide +kernel
  have hul : permBit cs!"unlink" = 12 := by decide +kernel
  have ccr : cs!"create" ∈ coveredNames := by decide +kernel
  have cwr : cs!"write" ∈ coveredNames := by decide +kernel
  have cul : cs!"unlink" ∈ coveredNames := by decide +kernel
  have c1 : k &&& (Pm.create ||| Pm.write) ≠ 0 ↔
      ∃ g ∈ [cs!"create", cs!"write", cs!"add_name", cs!"remove_name"], Granted m ps g := by
    rw [and_or_ne_zero,
      bit_mem cs!"create" Pm.create (fun i => by rw [hcr]; exact bit_spec 4 (by omega) i),
      bit_mem cs!"write" Pm.write (fun i => by rw [hwr]; exact bit_spec 3 (by omega) i),
      holds_covered h ccr, holds_covered h cwr]
    exact covered_ext extends_create_write (by decide +kernel) ccr cwr
  have c2 : k &&& (Pm.create ||| Pm.unlink) ≠ 0 ↔
      ∃ g ∈ [cs!"create", cs!"unlink", cs!"rmdir"], Granted m ps g := by
    rw [and_or_ne_zero,
      bit_mem cs!"create" Pm.create (fun i => by rw [hcr]; exact bit_spec 4 (by omega) i),
      bit_mem cs!"unlink" Pm.unlink (fun i => by rw [hul]; exact bit_spec 12 (by omega) i),
      holds_covered h ccr, holds_covered h cul]
    exact covered_ext extends_create_unlink (by decide +kernel) ccr cul
  have c3 : ∀ k', k' = k ∨ k' = k ||| Pm.setattrX →
      (k' &&& (Pm.create ||| Pm.unlink) ≠ 0 ↔ k &&& (Pm.create ||| Pm.unlink) ≠ 0) := by
    rintro k' (rfl | rfl)
    · rfl
    · have : (k ||| Pm.setattrX) &&& (Pm.create ||| Pm.unlink) = k &&& (Pm.create ||| Pm.unlink) := by
        apply BitVec.eq_of_getLsbD_eq
        intro i hi
        have : ∀ i < 32, (Pm.setattrX.getLsbD i && (Pm.create ||| Pm.unlink).getLsbD i) = false := by
          decide +kernel
        have := this i hi
        rw [BitVec.getLsbD_and, BitVec.getLsbD_and, BitVec.getLsbD_or, Bool.and_or_distrib_right, this,
          Bool.or_false]
      rw [this]
  have d1 : ∀ q ∈ coveredNames, Pm.setattrX.getLsbD (permBit q) =
      decide (q ∈ [cs!"setattr", cs!"getattr"]) := by decide +kernel
  have d2 : ∀ q ∈ coveredNames, (Pm.renameX ||| Pm.reparentX).getLsbD (permBit q) =
      decide (q ∈ [cs!"rename", cs!"getattr", cs!"reparent"]) := by decide +kernel
  intro q hq
  have hb := holds_covered h hq
  have d1 := d1 q hq
  have d2 := d2 q hq
  unfold Reasonable
  rw [← hb, ← c1, ← c2]
  unfold extendSpecial
  simp only
  by_cases h1 : k &&& (Pm.create ||| Pm.write) ≠ 0
  · rw [if_pos h1]
    by_cases h2 : k &&& (Pm.create ||| Pm.unlink) ≠ 0
    · rw [if_pos ((c3 _ (Or.inr rfl)).mpr h2)]
      rw [BitVec.getLsbD_or, BitVec.getLsbD_or, d1, d2, Bool.or_eq_true, Bool.or_eq_true,
        decide_eq_true_iff, decide_eq_true_iff]
      simp only [h1, h2, and_true, ne_eq, not_false_eq_true, or_assoc]
    · rw [if_neg (fun hh => h2 ((c3 _ (Or.inr rfl)).mp hh))]
      rw [BitVec.getLsbD_or, d1, Bool.or_eq_true, decide_eq_true_iff]
      simp only [h1, h2, and_true, and_false, or_false, ne_eq, not_false_eq_true]
  · rw [if_neg h1]
    by_cases h2 : k &&& (Pm.create ||| Pm.unlink) ≠ 0
    · rw [if_pos h2]
      rw [BitVec.getLsbD_or, d2, Bool.or_eq_true, decide_eq_true_iff]
      simp only [h1, h2, and_true, and_false, false_or, ne_eq, not_false_eq_true]
    · rw [if_neg h2]
      simp only [h1, h2, and_false, or_false]

/-! ## Messages -/

theorem sbAppend2 (sb : StringBuilder) (s a b : Str) (h : SbHolds sb s) :
    ∃ sb1 sb2, sbAppend sb a = .ok sb1 ∧ sbAppend sb1 b = .ok sb2 ∧ SbHolds sb2 (s ++ a ++ b) := by
  obtain ⟨sb1, h1, h2⟩ := sbAppend_ok sb s a h
  obtain ⟨sb2, h3, h4⟩ := sbAppend_ok sb1 _ b h2
  exact ⟨sb1, sb2, h1, h3, h4⟩

/-- The loop of `mask_to_str` over table entries with different bits. -/
theorem maskToStrLoop_ok (es : List PmEntry) (mask : Mask) (sb : StringBuilder) (s : Str)
    (h : SbHolds sb s) (hd : es.Pairwise fun a b => a.raw &&& b.raw = 0) :
    ∃ sb', maskToStrLoop es mask sb = .ok sb' ∧
      SbHolds sb' (s ++ ((es.filter fun e => decide (mask &&& e.raw ≠ 0)).map
        fun e => e.name ++ cs!" ").flatten) := by
  induction es generalizing mask sb s with
  | nil => exact ⟨sb, rfl, by simpa using h⟩
  | cons e es ih =>
    rw [List.pairwise_cons] at hd
    unfold maskToStrLoop
    by_cases hm : mask &&& e.raw ≠ 0
    · rw [if_pos hm]
      obtain ⟨sb1, sb2, h1, h2, h3⟩ := sbAppend2 sb s e.name cs!" " h
      rw [h1]; simp only; rw [h2]; simp only
      obtain ⟨sb3, h4, h5⟩ := ih (mask &&& ~~~e.raw) sb2 _ h3 hd.2
      refine ⟨sb3, h4, ?_⟩
      have : (es.filter fun x => decide (mask &&& ~~~e.raw &&& x.raw ≠ 0)) =
          es.filter fun x => decide (mask &&& x.raw ≠ 0) := by
        apply List.filter_congr
        intro x hx
        have hz := hd.1 x hx
        have : mask &&& ~~~e.raw &&& x.raw = mask &&& x.raw := by
          apply BitVec.eq_of_getLsbD_eq
          intro i hi
          have hz := congrArg (fun v => BitVec.getLsbD v i) hz
          simp only [BitVec.getLsbD_and, BitVec.getLsbD_not, hi, decide_true, Bool.true_and]
          simp only [BitVec.getLsbD_and] at hz
          revert hz
          cases e.raw.getLsbD i <;> cases x.raw.getLsbD i <;> simp
        rw [this]
      rw [this] at h5
      rw [List.filter_cons_of_pos (by simp only [decide_eq_true_iff]; exact hm)]
      simpa using h5
    · rw [if_neg hm]
      rw [List.filter_cons_of_neg (by simp only [decide_eq_true_iff]; exact hm)]
      exact ih mask sb s h hd.2

/-- `mask_to_str` skips the entries whose bit has been printed already; they are exactly the
uncovered ones after the first. -/
theorem maskToStrLoop_append (es es' : List PmEntry) (mask : Mask) (sb : StringBuilder)
    (h : ∀ e ∈ es', mask &&& e.raw = 0) :
    maskToStrLoop (es ++ es') mask sb = maskToStrLoop es mask sb := by
  induction es generalizing mask sb with
  | nil =>
    simp only [List.nil_append]
    induction es' with
    | nil => rfl
    | cons e es' ih =>
      unfold maskToStrLoop
      rw [if_neg (by simp [h e (by simp)])]
      exact ih fun x hx => h x (by simp [hx])
  | cons e es ih =>
    simp only [List.cons_append]
    unfold maskToStrLoop
    split
    · split
      · rfl
      · split
        · rfl
        · apply ih
          intro x hx
          have := h x hx
          apply BitVec.eq_of_getLsbD_eq
          intro i hi
          have := congrArg (fun v => BitVec.getLsbD v i) this
          simp only [BitVec.getLsbD_and] at this ⊢
          revert this
          cases mask.getLsbD i <;> cases x.raw.getLsbD i <;> simp
    · exact ih mask sb h

theorem table_split : pmTable = pmTable.take 25 ++ pmTable.drop 25 := by simp

theorem table_covered : (pmTable.take 25).map (·.name) = coveredNames := by decide +kernel

theorem table_distinct : (pmTable.take 25).Pairwise fun a b => a.raw &&& b.raw = 0 := by
  decide +kernel

theorem table_uncovered : ∀ e ∈ pmTable.drop 25, e.raw = Pm.uncovered := by decide +kernel

open Classical in
theorem maskToStr_ok (k : Mask) (P : Str → Prop)
    (h1 : ∀ q ∈ coveredNames, k.getLsbD (permBit q) = true ↔ P q)
    (h2 : ∀ i, k.getLsbD i = true → ∃ q ∈ coveredNames, permBit q = i) :
    maskToStr k = .ok (bracedOrNone (namesWith P)) := by
  have hzero : k = 0 ↔ namesWith P = [] := by
    unfold namesWith
    rw [List.filter_eq_nil_iff]
    constructor
    · rintro rfl q hq
      rw [decide_eq_true_iff, ← h1 q hq]; simp
    · intro h
      apply BitVec.eq_of_getLsbD_eq
      intro i _
      cases hk : k.getLsbD i with
      | false => simp
      | true =>
        obtain ⟨q, hq, he⟩ := h2 i hk
        subst he
        exact absurd (decide_eq_true ((h1 q hq).mp hk)) (h q hq)
  have hunc : k &&& Pm.uncovered = 0 := by
    apply Classical.byContradiction
    intro hn
    obtain ⟨i, h3, h4⟩ := and_ne_zero.mp hn
    rw [uncovered_bit] at h4
    have h4 := of_decide_eq_true h4
    subst h4
    obtain ⟨q, hq, he⟩ := h2 31 h3
    exact permBit_ne_31 q hq he
  unfold maskToStr bracedOrNone
  by_cases hk : k = 0
  · rw [if_pos hk, if_pos (hzero.mp hk)]
    obtain ⟨sb, h3, h4⟩ := sbAppend_ok _ _ cs!"(none)" (sbCreate_holds 0)
    simp only [h3, Res.bind_ok]
    exact sbDecouple_ok h4
  · rw [if_neg hk, if_neg (by simp [hunc]), if_neg (fun h => hk (hzero.mpr h))]
    obtain ⟨sb, h3, h4⟩ := sbAppend_ok _ _ cs!"{ " (sbCreate_holds 0)
    simp only [h3, Res.bind_ok]
    obtain ⟨sb1, h5, h6⟩ := maskToStrLoop_ok (pmTable.take 25) k sb _ h4 table_distinct
    rw [table_split, maskToStrLoop_append _ _ _ _ (fun e he => by rw [table_uncovered e he]; exact hunc), h5]
    simp only [Res.bind_ok]
    obtain ⟨sb2, h7, h8⟩ := sbAppend_ok _ _ cs!"}" h6
    simp only [h7, Res.bind_ok]
    rw [sbDecouple_ok h8]
    unfold braced
    have : ((pmTable.take 25).filter fun e => decide (k &&& e.raw ≠ 0)).map (fun e => e.name ++ cs!" ") =
        (namesWith P).map (· ++ cs!" ") := by
      unfold namesWith
      rw [← table_covered, List.filter_map, List.map_map]
      congr 1
      apply List.filter_congr
      intro e he
      have he' : e ∈ pmTable := List.mem_of_mem_take he
      have hc : e.name ∈ coveredNames := by
        rw [← table_covered]; exact List.mem_map_of_mem he
      rw [Function.comp, Bool.eq_iff_iff, decide_eq_true_iff, decide_eq_true_iff, ← h1 _ hc]
      refine bit_mem e.name e.raw ?_ k
      intro i
      by_cases hi : i < 32
      · exact table_raw e he' i hi
      · rw [BitVec.getLsbD_of_ge _ _ (by omega)]
        have := permBit_lt e.name
        have : ¬permBit e.name = i := by omega
        simp [this]
    rw [this]
    simp

/-! ## Entries of the rule -/

theorem maskOf_ok {m : Maps} {ps : List Str} {r : Masks} (h : computePermMask m ps ⟨0, 0⟩ = .ok r)
    {p : Str} (hp : p ∈ ps) : ∃ k, maskOf m p = .ok k ∧ Holds k.raw (Grants m p) := by
  cases hk : maskOf m p with
  | ub =>
    exfalso
    have h2 : computePermMaskF m (pmFuel m + 1) [p] ⟨0, 0⟩ = .ub := by
      show maskLoop _ _ _ = _
      unfold maskLoop
      unfold maskOf at hk
      rw [hk]
    obtain ⟨q, hq, hc⟩ := circular_of_ub (by unfold pmFuel; omega) h2
    simp at hq; subst hq
    have := ub_of_circular hc (pmFuel m) ps ⟨0, 0⟩ hp
    unfold computePermMask at h
    rw [h] at this; simp at this
  | ok k =>
    refine ⟨k, rfl, ?_⟩
    have := strToMask_adds (m := m) (compute_adds (pmFuel m)) p _ _ hk
    intro i
    rw [this.1]; simp

theorem matched_iff {m : Maps} {ps d : List Str} {r : Masks} {km : Mask} {p : Str} {k : Masks}
    (hr : Holds r.raw (Granted m ps)) (hm : Holds km (Granted m d))
    (hc : ∀ q, Granted m d q → q ∈ coveredNames) (hp : p ∈ ps) (hk : Holds k.raw (Grants m p)) :
    k.raw &&& (km &&& r.raw) = k.raw ↔ ∀ q, Grants m p q → Granted m d q := by
  rw [and_eq_left]
  constructor
  · intro h q hq
    have h1 := h (permBit q) ((hk _).mpr ⟨q, hq, rfl⟩)
    rw [BitVec.getLsbD_and, Bool.and_eq_true] at h1
    obtain ⟨q', h2, h3⟩ := (hm _).mp h1.1
    have hq' := hc q' h2
    by_cases hcq : q ∈ coveredNames
    · rw [← permBit_inj q' hq' q hcq h3]; exact h2
    · rw [(permBit_not_covered hcq).1] at h3
      exact absurd h3 (permBit_ne_31 q' hq')
  · intro h i hi
    obtain ⟨q, h1, h2⟩ := (hk i).mp hi
    rw [BitVec.getLsbD_and, Bool.and_eq_true]
    exact ⟨(hm i).mpr ⟨q, h q h1, h2⟩, (hr i).mpr ⟨q, ⟨p, hp, h1⟩, h2⟩⟩

open Classical in
theorem matchedCount_ok {m : Maps} {ps d : List Str} {r : Masks} {km : Mask}
    (h : computePermMask m ps ⟨0, 0⟩ = .ok r)
    (hr : Holds r.raw (Granted m ps)) (hm : Holds km (Granted m d))
    (hc : ∀ q, Granted m d q → q ∈ coveredNames) (l : List Str) (hl : ∀ p ∈ l, p ∈ ps) (n : Nat) :
    matchedCount m (km &&& r.raw) l n = .ok (n + (replaced m l d).length) := by
  induction l generalizing n with
  | nil => simp [matchedCount, replaced]
  | cons p l ih =>
    obtain ⟨k, h1, h2⟩ := maskOf_ok h (hl p (by simp))
    have h3 := matched_iff hr hm hc (hl p (by simp)) h2
    unfold matchedCount
    rw [h1]
    simp only
    rw [ih fun q hq => hl q (by simp [hq])]
    unfold replaced
    by_cases h4 : k.raw &&& (km &&& r.raw) = k.raw
    · rw [if_pos h4, List.filter_cons_of_pos (by simp only [decide_eq_true_iff]; exact h3.mp h4), List.length_cons]
      congr 1; omega
    · rw [if_neg h4, List.filter_cons_of_neg (by rw [decide_eq_true_iff]; exact fun hh => h4 (h3.mpr hh))]

open Classical in
theorem matchedStrLoop_ok {m : Maps} {ps d : List Str} {r : Masks} {km : Mask}
    (h : computePermMask m ps ⟨0, 0⟩ = .ok r)
    (hr : Holds r.raw (Granted m ps)) (hm : Holds km (Granted m d))
    (hc : ∀ q, Granted m d q → q ∈ coveredNames) (l : List Str) (hl : ∀ p ∈ l, p ∈ ps)
    (sb : StringBuilder) (s : Str) (hs : SbHolds sb s) :
    ∃ sb', matchedStrLoop m (km &&& r.raw) l sb = .ok sb' ∧
      SbHolds sb' (s ++ ((replaced m l d).map (· ++ cs!" ")).flatten) := by
  induction l generalizing sb s with
  | nil => exact ⟨sb, rfl, by simpa [replaced] using hs⟩
  | cons p l ih =>
    obtain ⟨k, h1, h2⟩ := maskOf_ok h (hl p (by simp))
    have h3 := matched_iff hr hm hc (hl p (by simp)) h2
    unfold matchedStrLoop
    rw [h1]
    simp only
    have ih := ih fun q hq => hl q (by simp [hq])
    unfold replaced
    by_cases h4 : k.raw &&& (km &&& r.raw) = k.raw
    · rw [if_pos h4, List.filter_cons_of_pos (by simp only [decide_eq_true_iff]; exact h3.mp h4)]
      obtain ⟨sb1, sb2, h5, h6, h7⟩ := sbAppend2 sb s p cs!" " hs
      rw [h5]; simp only; rw [h6]; simp only
      obtain ⟨sb3, h8, h9⟩ := ih sb2 _ h7
      refine ⟨sb3, h8, ?_⟩
      unfold replaced at h9
      simpa using h9
    · rw [if_neg h4, List.filter_cons_of_neg (by rw [decide_eq_true_iff]; exact fun hh => h4 (h3.mpr hh))]
      exact ih sb s hs

theorem matchedStr_ok {m : Maps} {ps d : List Str} {r : Masks} {km : Mask}
    (h : computePermMask m ps ⟨0, 0⟩ = .ok r)
    (hr : Holds r.raw (Granted m ps)) (hm : Holds km (Granted m d))
    (hc : ∀ q, Granted m d q → q ∈ coveredNames) :
    permissionStringsMatchedStr m ps (km &&& r.raw) = .ok (braced (replaced m ps d)) := by
  unfold permissionStringsMatchedStr
  obtain ⟨sb, h3, h4⟩ := sbAppend_ok _ _ cs!"{ " (sbCreate_holds 0)
  simp only [h3, Res.bind_ok]
  obtain ⟨sb1, h5, h6⟩ := matchedStrLoop_ok h hr hm hc ps (fun _ h => h) sb _ h4
  rw [h5]
  simp only [Res.bind_ok]
  obtain ⟨sb2, h7, h8⟩ := sbAppend_ok _ _ cs!"}" h6
  simp only [h7, Res.bind_ok]
  rw [sbDecouple_ok h8]
  simp [braced]

end Selint
