import Verif.Spec.Single
import Verif.Model.Ordering
/-! # Lemmas about single precision -/

namespace Selint
open Spec

theorem two_ne : (2 : Rat) ≠ 0 := by decide
theorem pow2_pos (k : Int) : (0 : Rat) < 2 ^ k := Rat.zpow_pos (by decide)
theorem pow2_add (k l : Int) : (2 : Rat) ^ (k + l) = 2 ^ k * 2 ^ l := Rat.zpow_add two_ne k l
theorem pow2_nat (k : Nat) : (2 : Rat) ^ (k : Int) = ((2 ^ k : Nat) : Rat) := by
  rw [Rat.zpow_natCast]
  induction k with
  | zero => rfl
  | succ k ih => rw [Rat.pow_succ, ih, Nat.pow_succ, Rat.natCast_mul]; rfl

theorem pow2_le {k l : Int} (h : k ≤ l) : (2 : Rat) ^ k ≤ 2 ^ l := by
  obtain ⟨j, rfl⟩ : ∃ j : Nat, l = k + j := ⟨(l - k).toNat, by omega⟩
  rw [pow2_add, pow2_nat]
  have h1 : (1 : Rat) ≤ ((2 ^ j : Nat) : Rat) := by
    have := Rat.natCast_le_natCast.2 (Nat.one_le_two_pow (n := j)); simpa using this
  have h2 := pow2_pos k
  have := Rat.mul_le_mul_of_nonneg_left h1 (Rat.le_of_lt h2)
  grind

/-- The integer nearest to `n / d`, ties to even. -/
def roundDiv (n d : Nat) : Nat :=
  if 2 * (n % d) < d then n / d else if d < 2 * (n % d) then n / d + 1 else
    if n / d % 2 = 0 then n / d else n / d + 1

theorem div_bounds {n d : Nat} (hd : 0 < d) : ((n / d : Nat) : Rat) ≤ (n : Rat) / d ∧
    (n : Rat) / d = ((n / d : Nat) : Rat) + ((n % d : Nat) : Rat) / d := by
  have hd' : (0 : Rat) < d := by have := Rat.natCast_lt_natCast.2 hd; simpa using this
  have h := Nat.div_add_mod n d
  have h' : (n : Rat) = d * ((n / d : Nat) : Rat) + ((n % d : Nat) : Rat) := by
    rw [← Rat.natCast_mul, ← Rat.natCast_add, h]
  have e : (n : Rat) / d = ((n / d : Nat) : Rat) + ((n % d : Nat) : Rat) / d := by
    conv => lhs; rw [h']
    grind
  refine ⟨?_, e⟩
  have : (0 : Rat) ≤ ((n % d : Nat) : Rat) / d := by
    rw [Rat.div_def]
    exact Rat.mul_nonneg Rat.natCast_nonneg (Rat.le_of_lt (Rat.inv_pos.2 hd'))
  grind


theorem frac_iff {r d : Nat} (hd : 0 < d) (k : Nat) :
    ((k : Rat) * ((r : Rat) / d) < 1 ↔ k * r < d) ∧ (1 < (k : Rat) * ((r : Rat) / d) ↔ d < k * r) := by
  have hd' : (0 : Rat) < d := by have := Rat.natCast_lt_natCast.2 hd; simpa using this
  have e : (k : Rat) * ((r : Rat) / d) * d = ((k * r : Nat) : Rat) := by
    rw [Rat.natCast_mul]; grind
  constructor
  · rw [← Rat.mul_lt_mul_right hd', e, Rat.one_mul, Rat.natCast_lt_natCast]
  · rw [← Rat.mul_lt_mul_right hd', e, Rat.one_mul, Rat.natCast_lt_natCast]

theorem int_nat (t : Int) (k : Nat) : (t ≤ k → (t : Rat) ≤ k) ∧ ((k : Int) + 1 ≤ t → (k : Rat) + 1 ≤ t) ∧
    (t < k → (t : Rat) < k) ∧ ((k : Int) + 1 < t → (k : Rat) + 1 < t) := by
  refine ⟨fun h => ?_, fun h => ?_, fun h => ?_, fun h => ?_⟩
  · have := Rat.intCast_le_intCast.2 h; simpa [Rat.intCast_natCast] using this
  · have := Rat.intCast_le_intCast.2 h; simpa [Rat.intCast_natCast] using this
  · have := Rat.intCast_lt_intCast.2 h; simpa [Rat.intCast_natCast] using this
  · have := Rat.intCast_lt_intCast.2 h; simpa [Rat.intCast_natCast] using this

theorem roundDiv_nearest {n d : Nat} (hd : 0 < d) (t : Int) :
    apart ((n : Rat) / d) (roundDiv n d : Nat) ≤ apart ((n : Rat) / d) t ∧
    (apart ((n : Rat) / d) (roundDiv n d : Nat) = apart ((n : Rat) / d) t → t ≠ roundDiv n d →
      roundDiv n d % 2 = 0) := by
  obtain ⟨h1, h2⟩ := div_bounds (n := n) hd
  have h3 := frac_iff (r := n % d) hd 2
  have h4 := (frac_iff (r := n % d) hd 1).1.2 (by have := Nat.mod_lt n hd; omega)
  generalize ((n % d : Nat) : Rat) / d = f at *
  generalize (n : Rat) / d = w at *
  have c2 : ((2 : Nat) : Rat) = 2 := rfl
  have c1 : ((1 : Nat) : Rat) = 1 := rfl
  rw [c2] at h3
  rw [c1] at h4
  have c3 : ((n / d + 1 : Nat) : Rat) = ((n / d : Nat) : Rat) + 1 := by rw [Rat.natCast_add]; rfl
  have ht : (t : Rat) ≤ ((n / d : Nat) : Rat) ∧ t ≤ (n / d : Nat) ∨
      ((n / d : Nat) : Rat) + 1 ≤ (t : Rat) ∧ ((n / d : Nat) : Int) + 1 ≤ t := by
    by_cases h : t ≤ ((n / d : Nat) : Int)
    · exact Or.inl ⟨(int_nat t _).1 h, h⟩
    · have h : ((n / d : Nat) : Int) + 1 ≤ t := by omega
      exact Or.inr ⟨(int_nat t _).2.1 h, h⟩
  have hlt : t < (n / d : Nat) → (t : Rat) < ((n / d : Nat) : Rat) := (int_nat t _).2.2.1
  have hgt : ((n / d : Nat) : Int) + 1 < t → ((n / d : Nat) : Rat) + 1 < (t : Rat) := (int_nat t _).2.2.2
  unfold roundDiv apart
  generalize (t : Rat) = T at *
  generalize hq : ((n / d : Nat) : Rat) = Q at *
  split
  · rename_i h; rw [← h3.1] at h
    refine ⟨by grind, ?_⟩
    rw [hq]
    grind
  · split
    · rename_i h; rw [← h3.2] at h
      rw [c3]
      refine ⟨by grind, ?_⟩
      grind
    · rename_i ha hb
      rw [← h3.1] at ha
      rw [← h3.2] at hb
      split
      · rw [hq]; refine ⟨by grind, fun _ _ => by assumption⟩
      · rw [c3]; refine ⟨by grind, fun _ _ => by omega⟩

/-- What `f32` does: the quotient is scaled to 24 bits and rounded to an integer. -/
theorem f32_scaled {p q : Nat} (hp : 0 < p) (hq : 0 < q) : ∃ (n d : Nat) (sh : Int), 0 < d ∧
    (p : Rat) / q = (n : Rat) / d * 2 ^ sh ∧ 2 ^ 23 * d ≤ n ∧ n < 2 ^ 24 * d ∧
    f32 p q = (roundDiv n d : Nat) * 2 ^ sh := by
  have hq' : (0 : Rat) < q := by have := Rat.natCast_lt_natCast.2 hq; simpa using this
  -- the exponent
  obtain ⟨e, he1, he2, he⟩ : ∃ e : Int, (2 : Rat) ^ e * q ≤ p ∧ (p : Rat) < 2 ^ (e + 1) * q ∧
      e = (let l : Int := (p.log2 : Int) - (q.log2 : Int)
        let below : Bool := if 0 ≤ l then decide (p < q * 2 ^ l.toNat)
          else decide (p * 2 ^ (-l).toNat < q)
        if below then l - 1 else l) := by
    have p1 : (2 : Rat) ^ (p.log2 : Int) ≤ p := by
      rw [pow2_nat]; exact Rat.natCast_le_natCast.2 (Nat.log2_self_le (by omega))
    have p2 : (p : Rat) < 2 ^ ((p.log2 : Int) + 1) := by
      have := pow2_nat (p.log2 + 1)
      rw [show ((p.log2 : Int) + 1) = ((p.log2 + 1 : Nat) : Int) by omega, this]
      exact Rat.natCast_lt_natCast.2 Nat.lt_log2_self
    have q1 : (2 : Rat) ^ (q.log2 : Int) ≤ q := by
      rw [pow2_nat]; exact Rat.natCast_le_natCast.2 (Nat.log2_self_le (by omega))
    have q2 : (q : Rat) < 2 ^ ((q.log2 : Int) + 1) := by
      have := pow2_nat (q.log2 + 1)
      rw [show ((q.log2 : Int) + 1) = ((q.log2 + 1 : Nat) : Int) by omega, this]
      exact Rat.natCast_lt_natCast.2 Nat.lt_log2_self
    have hb : ∀ l : Int, (if 0 ≤ l then decide (p < q * 2 ^ l.toNat)
          else decide (p * 2 ^ (-l).toNat < q)) = true ↔ (p : Rat) < 2 ^ l * q := by
      intro l
      split
      · rename_i h
        rw [decide_eq_true_eq, ← Rat.natCast_lt_natCast, Rat.natCast_mul, ← pow2_nat,
          show ((l.toNat : Nat) : Int) = l by omega, Rat.mul_comm]
      · rename_i h
        rw [decide_eq_true_eq, ← Rat.natCast_lt_natCast, Rat.natCast_mul, ← pow2_nat,
          show (((-l).toNat : Nat) : Int) = -l by omega, ← Rat.mul_lt_mul_right (pow2_pos l),
          Rat.mul_assoc, ← pow2_add, show -l + l = 0 by omega, Rat.zpow_zero, Rat.mul_one, Rat.mul_comm]
    by_cases h : (p : Rat) < 2 ^ ((p.log2 : Int) - q.log2) * q
    · refine ⟨(p.log2 : Int) - q.log2 - 1, ?_, ?_, ?_⟩
      · have h := Rat.mul_lt_mul_of_pos_left q2 (pow2_pos ((p.log2 : Int) - q.log2 - 1))
        rw [← pow2_add, show (p.log2 : Int) - q.log2 - 1 + (q.log2 + 1) = p.log2 by omega] at h
        grind
      · rwa [show (p.log2 : Int) - q.log2 - 1 + 1 = p.log2 - q.log2 by omega]
      · dsimp only
        rw [if_pos ((hb _).2 h)]
    · refine ⟨(p.log2 : Int) - q.log2, Rat.not_lt.1 h, ?_, ?_⟩
      · have h := Rat.mul_le_mul_of_nonneg_left q1 (Rat.le_of_lt (pow2_pos ((p.log2 : Int) - q.log2 + 1)))
        rw [← pow2_add, show (p.log2 : Int) - q.log2 + 1 + q.log2 = p.log2 + 1 by omega] at h
        grind
      · dsimp only
        rw [if_neg (fun hc => h ((hb _).1 hc))]
  refine ⟨if 0 ≤ e - 23 then p else p * 2 ^ (-(e - 23)).toNat,
    if 0 ≤ e - 23 then q * 2 ^ (e - 23).toNat else q, e - 23, ?_, ?_, ?_, ?_, ?_⟩
  · split
    · exact Nat.mul_pos hq (Nat.two_pow_pos _)
    · exact hq
  · split
    · rename_i h
      rw [Rat.natCast_mul, ← pow2_nat, show (((e - 23).toNat : Nat) : Int) = e - 23 by omega]
      have := pow2_pos (e - 23)
      grind
    · rename_i h
      rw [Rat.natCast_mul, ← pow2_nat, show (((-(e - 23)).toNat : Nat) : Int) = -(e - 23) by omega]
      have h1 : (2 : Rat) ^ (-(e - 23)) * 2 ^ (e - 23) = 1 := by
        rw [← pow2_add, show -(e - 23) + (e - 23) = 0 by omega, Rat.zpow_zero]
      grind
  · rw [← Rat.natCast_le_natCast, Rat.natCast_mul, ← pow2_nat]
    split
    · rename_i h
      rw [Rat.natCast_mul, ← pow2_nat, show (((e - 23).toNat : Nat) : Int) = e - 23 by omega,
        Rat.mul_comm (q : Rat), ← Rat.mul_assoc, ← pow2_add, show ((23 : Nat) : Int) + (e - 23) = e by omega]
      exact he1
    · rename_i h
      rw [Rat.natCast_mul, ← pow2_nat, show (((-(e - 23)).toNat : Nat) : Int) = -(e - 23) by omega]
      have h1 := Rat.mul_le_mul_of_nonneg_right he1 (Rat.le_of_lt (pow2_pos (-(e - 23))))
      rw [Rat.mul_assoc, Rat.mul_comm (q : Rat), ← Rat.mul_assoc, ← pow2_add,
        show e + -(e - 23) = ((23 : Nat) : Int) by omega] at h1
      exact h1
  · rw [← Rat.natCast_lt_natCast, Rat.natCast_mul, ← pow2_nat]
    split
    · rename_i h
      rw [Rat.natCast_mul, ← pow2_nat, show (((e - 23).toNat : Nat) : Int) = e - 23 by omega,
        Rat.mul_comm (q : Rat), ← Rat.mul_assoc, ← pow2_add, show ((24 : Nat) : Int) + (e - 23) = e + 1 by omega]
      exact he2
    · rename_i h
      rw [Rat.natCast_mul, ← pow2_nat, show (((-(e - 23)).toNat : Nat) : Int) = -(e - 23) by omega]
      have h1 := Rat.mul_lt_mul_of_pos_right he2 (pow2_pos (-(e - 23)))
      rw [Rat.mul_assoc, Rat.mul_comm (q : Rat), ← Rat.mul_assoc, ← pow2_add,
        show e + 1 + -(e - 23) = ((24 : Nat) : Int) by omega] at h1
      exact h1
  · unfold f32
    rw [if_neg (by omega)]
    dsimp only
    dsimp only at he
    rw [← he]
    split
    · rename_i h
      rw [Rat.natCast_mul, ← pow2_nat, show (((e - 23).toNat : Nat) : Int) = e - 23 by omega]
      rfl
    · rename_i h
      rw [← pow2_nat, show (((-(e - 23)).toNat : Nat) : Int) = -(e - 23) by omega, Rat.zpow_neg,
        Rat.div_def, Rat.inv_inv]
      rfl

theorem apart_scale {u : Rat} (hu : 0 < u) (x y : Rat) : apart (x * u) (y * u) = apart x y * u := by
  unfold apart
  have h : x * u ≤ y * u ↔ x ≤ y := by
    constructor
    · intro h
      apply Rat.not_lt.1
      intro hc
      exact Rat.not_lt.2 h ((Rat.mul_lt_mul_right hu).2 hc)
    · intro h; exact Rat.mul_le_mul_of_nonneg_right h (Rat.le_of_lt hu)
  by_cases hc : x ≤ y
  · rw [if_pos hc, if_pos (h.2 hc)]; grind
  · rw [if_neg hc, if_neg (fun e => hc (h.1 e))]; grind

theorem f32_rounds {p q : Nat} (hq : 0 < q) : RoundsTo ((p : Rat) / q) (f32 p q) := by
  by_cases hp : p = 0
  · subst hp
    have h0 : ((0 : Nat) : Rat) / q = 0 := by
      rw [show ((0 : Nat) : Rat) = 0 from rfl, Rat.div_def, Rat.zero_mul]
    have h1 : f32 0 q = 0 := rfl
    rw [h0, h1]
    refine ⟨⟨0, 0, by decide, by rw [show ((0 : Nat) : Rat) = 0 from rfl, Rat.zero_mul]⟩, ?_, fun _ _ _ _ => Or.inl rfl⟩
    intro y _
    unfold apart
    grind
  obtain ⟨n, d, sh, hd, e1, e2, e3, e4⟩ := f32_scaled (by omega : 0 < p) hq
  have hu := pow2_pos sh
  have hd' : (0 : Rat) < d := by have := Rat.natCast_lt_natCast.2 hd; simpa using this
  -- the result has 24 bits
  have s1 : 2 ^ 23 ≤ roundDiv n d := by
    have : 2 ^ 23 ≤ n / d := (Nat.le_div_iff_mul_le hd).2 e2
    unfold roundDiv; repeat' split
    all_goals omega
  have s2 : roundDiv n d ≤ 2 ^ 24 := by
    have : n / d < 2 ^ 24 := (Nat.div_lt_iff_lt_mul hd).2 e3
    unfold roundDiv; repeat' split
    all_goals omega
  -- a single precision number is a multiple of the unit, or smaller than all of 24 bits
  have key : ∀ y, Single y → (∃ t : Int, y = t * 2 ^ sh) ∨ y < ((2 ^ 23 : Nat) : Rat) * 2 ^ sh := by
    rintro y ⟨t, k, ht, rfl⟩
    by_cases hk : sh ≤ k
    · refine Or.inl ⟨((t * 2 ^ (k - sh).toNat : Nat) : Int), ?_⟩
      rw [Rat.intCast_natCast, Rat.natCast_mul, ← pow2_nat, Rat.mul_assoc, ← pow2_add,
        show (((k - sh).toNat : Nat) : Int) + sh = k by omega]
    · refine Or.inr ?_
      have h1 := (Rat.mul_lt_mul_right (pow2_pos k)).2 (Rat.natCast_lt_natCast.2 ht)
      have h2 : ((2 ^ 24 : Nat) : Rat) * 2 ^ k = ((2 ^ 23 : Nat) : Rat) * 2 ^ (k + 1) := by
        rw [← pow2_nat, ← pow2_nat, ← pow2_add, ← pow2_add]
        congr 1; omega
      have h3 := Rat.mul_le_mul_of_nonneg_left (pow2_le (by omega : k + 1 ≤ sh))
        (Rat.natCast_nonneg (a := 2 ^ 23))
      grind
  have hlow : ((2 ^ 23 : Nat) : Rat) ≤ (n : Rat) / d := by
    have := Rat.natCast_le_natCast.2 e2
    rw [Rat.natCast_mul] at this
    apply Rat.not_lt.1
    intro hc
    have h := (Rat.mul_lt_mul_right hd').2 hc
    rw [Rat.div_mul_cancel (by grind)] at h
    exact Rat.not_lt.2 this h
  have h23 := roundDiv_nearest (n := n) hd ((2 ^ 23 : Nat) : Int)
  rw [Rat.intCast_natCast] at h23
  have hev : roundDiv n d % 2 = 0 → EvenSingle (f32 p q) := by
    intro h
    refine Or.inr ?_
    by_cases hs : roundDiv n d < 2 ^ 24
    · exact ⟨_, sh, s1, hs, h, e4⟩
    · refine ⟨2 ^ 23, sh + 1, by omega, by omega, by decide, ?_⟩
      rw [e4, show roundDiv n d = 2 ^ 24 by omega, ← pow2_nat, ← pow2_nat, ← pow2_add, ← pow2_add]
      congr 1; omega
  refine ⟨?_, ?_, ?_⟩
  · by_cases hs : roundDiv n d < 2 ^ 24
    · exact ⟨_, sh, hs, e4⟩
    · refine ⟨2 ^ 23, sh + 1, by decide, ?_⟩
      rw [e4, show roundDiv n d = 2 ^ 24 by omega, ← pow2_nat, ← pow2_nat, ← pow2_add, ← pow2_add]
      congr 1; omega
  · intro y hy
    rw [e1, e4, apart_scale hu]
    rcases key y hy with ⟨t, rfl⟩ | hlt
    · rw [apart_scale hu]
      exact Rat.mul_le_mul_of_nonneg_right (roundDiv_nearest hd t).1 (Rat.le_of_lt hu)
    · have h1 := Rat.mul_le_mul_of_nonneg_right h23.1 (Rat.le_of_lt hu)
      have h2 := Rat.mul_le_mul_of_nonneg_right hlow (Rat.le_of_lt hu)
      rw [← apart_scale hu, ← apart_scale hu] at h1
      rw [← apart_scale hu]
      unfold apart at h1 ⊢
      grind
  · intro y hy hne heq
    rw [e1, e4, apart_scale hu] at heq
    rcases key y hy with ⟨t, rfl⟩ | hlt
    · rw [apart_scale hu] at heq
      refine hev ((roundDiv_nearest hd t).2 ?_ ?_)
      · have : ∀ a b : Rat, a * 2 ^ sh = b * 2 ^ sh → a = b := by intro a b h; grind
        exact this _ _ heq
      · rintro rfl
        exact hne (by rw [e4, Rat.intCast_natCast])
    · exfalso
      have h1 := Rat.mul_le_mul_of_nonneg_right h23.1 (Rat.le_of_lt hu)
      have h2 := Rat.mul_le_mul_of_nonneg_right hlow (Rat.le_of_lt hu)
      rw [← apart_scale hu, ← apart_scale hu] at h1
      rw [← apart_scale hu] at heq
      unfold apart at h1 heq
      grind

theorem nat_mul_lt {a b : Nat} {e : Int} : (a : Rat) * 2 ^ e < (b : Rat) * 2 ^ e ↔ a < b := by
  rw [Rat.mul_lt_mul_right (pow2_pos e), Rat.natCast_lt_natCast]

theorem nat_mul_shift (a : Nat) {e e' : Int} (h : e ≤ e') :
    (a : Rat) * 2 ^ e' = ((a * 2 ^ (e' - e).toNat : Nat) : Rat) * 2 ^ e := by
  rw [Rat.natCast_mul, ← pow2_nat, Rat.mul_assoc, ← pow2_add,
    show (((e' - e).toNat : Nat) : Int) + e = e' by omega]

theorem _root_.Selint.Spec.Single.nonneg {x : Rat} (h : Single x) : 0 ≤ x := by
  obtain ⟨s, e, _, rfl⟩ := h
  exact Rat.mul_nonneg Rat.natCast_nonneg (Rat.le_of_lt (pow2_pos e))

/-- Between two even numbers there is another one. -/
theorem _root_.Selint.Spec.EvenSingle.between {x x' : Rat} (hx : EvenSingle x) (hx' : EvenSingle x') (h : x < x')
    (h0 : 0 ≤ x) : ∃ y, Single y ∧ x < y ∧ y < x' := by
  rcases hx' with rfl | ⟨t, k, t1, t2, t3, rfl⟩
  · grind
  rcases hx with rfl | ⟨s, e, s1, s2, s3, rfl⟩
  · refine ⟨_, ⟨t, k - 1, t2, rfl⟩, ?_, ?_⟩
    · have := (Rat.mul_lt_mul_right (pow2_pos (k - 1))).2 (Rat.natCast_lt_natCast.2 (by omega : 0 < t))
      rw [show ((0 : Nat) : Rat) = 0 from rfl, Rat.zero_mul] at this
      exact this
    · rw [nat_mul_shift t (by omega : k - 1 ≤ k), nat_mul_lt, show k - (k - 1) = 1 by omega]
      show t < t * 2
      omega
  · refine ⟨((s + 1 : Nat) : Rat) * 2 ^ e, ⟨s + 1, e, by omega, rfl⟩, nat_mul_lt.2 (by omega), ?_⟩
    by_cases he : e ≤ k
    · rw [nat_mul_shift t he, nat_mul_lt] at h ⊢
      by_cases hk : k = e
      · subst hk
        rw [show (k - k).toNat = 0 by omega] at h ⊢
        omega
      · have hj : (k - e).toNat = (k - e - 1).toNat + 1 := by omega
        rw [hj, Nat.pow_succ]
        have : 1 ≤ 2 ^ (k - e - 1).toNat := Nat.one_le_two_pow
        have h2 : t * 1 ≤ t * 2 ^ (k - e - 1).toNat := Nat.mul_le_mul_left t this
        have h3 : t * (2 ^ (k - e - 1).toNat * 2) = t * 2 ^ (k - e - 1).toNat * 2 := by
          rw [Nat.mul_assoc]
        omega
    · exfalso
      rw [nat_mul_shift s (by omega : k ≤ e), nat_mul_lt] at h
      have hj : (e - k).toNat = (e - k - 1).toNat + 1 := by omega
      rw [hj, Nat.pow_succ] at h
      have : 1 ≤ 2 ^ (e - k - 1).toNat := Nat.one_le_two_pow
      have h2 : s * 1 ≤ s * 2 ^ (e - k - 1).toNat := Nat.mul_le_mul_left s this
      have h3 : s * (2 ^ (e - k - 1).toNat * 2) = s * 2 ^ (e - k - 1).toNat * 2 := by
        rw [Nat.mul_assoc]
      omega

theorem _root_.Selint.Spec.RoundsTo.not_lt {v x x' : Rat} (h : RoundsTo v x) (h' : RoundsTo v x') : ¬x < x' := by
  intro hlt
  have e : apart v x = apart v x' := by
    have := h.nearest x' h'.single
    have := h'.nearest x h.single
    grind
  obtain ⟨y, hy, y1, y2⟩ := EvenSingle.between (h.even x' h'.single (by grind) e)
    (h'.even x h.single (by grind) e.symm) hlt h.single.nonneg
  have := h.nearest y hy
  unfold apart at *
  grind

theorem _root_.Selint.Spec.RoundsTo.unique {v x x' : Rat} (h : RoundsTo v x) (h' : RoundsTo v x') : x = x' := by
  have := h.not_lt h'
  have := h'.not_lt h
  grind

theorem _root_.Selint.Spec.RoundsTo.mono {v v' x x' : Rat} (h : RoundsTo v x) (h' : RoundsTo v' x') (hv : v ≤ v') :
    x ≤ x' := by
  by_cases e : v = v'
  · subst e; rw [h.unique h']; grind
  · have h1 := h.nearest x' h'.single
    have h2 := h'.nearest x h.single
    unfold apart at *
    grind

/-- The result is off by one part in 2^24 at most. -/
theorem _root_.Selint.Spec.RoundsTo.close {v x : Rat} (h : RoundsTo v x) (hv : 0 < v) :
    apart v x * ((2 ^ 24 : Nat) : Rat) ≤ v := by
  have hn : 0 < v.num := by
    have h1 := Rat.num_nonneg.2 (Rat.le_of_lt hv)
    have h2 : v.num ≠ 0 := fun e => by rw [Rat.num_eq_zero] at e; grind
    omega
  have hp : 0 < v.num.toNat := by omega
  have hv' : v = (v.num.toNat : Rat) / (v.den : Rat) := by
    conv => lhs; rw [← Rat.num_divInt_den v, Rat.divInt_eq_div]
    rw [← Rat.intCast_natCast, ← Rat.intCast_natCast, show ((v.num.toNat : Nat) : Int) = v.num by omega]
  obtain ⟨n, d, sh, hd, e1, e2, e3, e4⟩ := f32_scaled hp v.den_pos
  rw [hv'] at h
  rw [h.unique (f32_rounds v.den_pos)]
  rw [← hv'] at e1
  rw [e4, e1, apart_scale (pow2_pos sh)]
  have hhalf : apart ((n : Rat) / d) (roundDiv n d : Nat) ≤ 1 / 2 := by
    obtain ⟨h1, h2⟩ := div_bounds (n := n) hd
    have h3 := (roundDiv_nearest (n := n) hd ((n / d : Nat) : Int)).1
    have h4 := (roundDiv_nearest (n := n) hd ((n / d + 1 : Nat) : Int)).1
    have c3 : ((n / d + 1 : Nat) : Rat) = ((n / d : Nat) : Rat) + 1 := by rw [Rat.natCast_add]; rfl
    have h5 := (frac_iff (r := n % d) hd 1).1.2 (by have := Nat.mod_lt n hd; omega)
    have c1 : ((1 : Nat) : Rat) = 1 := rfl
    rw [c1] at h5
    rw [Rat.intCast_natCast] at h3 h4
    rw [c3] at h4
    generalize apart ((n : Rat) / d) (roundDiv n d : Nat) = z at *
    unfold apart at h3 h4
    grind
  have hd' : (0 : Rat) < d := by have := Rat.natCast_lt_natCast.2 hd; simpa using this
  have hlow : ((2 ^ 23 : Nat) : Rat) ≤ (n : Rat) / d := by
    have := Rat.natCast_le_natCast.2 e2
    rw [Rat.natCast_mul] at this
    apply Rat.not_lt.1
    intro hc
    have h := (Rat.mul_lt_mul_right hd').2 hc
    rw [Rat.div_mul_cancel (by grind)] at h
    exact Rat.not_lt.2 this h
  have h1 := Rat.mul_le_mul_of_nonneg_right hhalf (Rat.le_of_lt (pow2_pos sh))
  have h2 := Rat.mul_le_mul_of_nonneg_right hlow (Rat.le_of_lt (pow2_pos sh))
  have c23 : ((2 ^ 23 : Nat) : Rat) = 8388608 := rfl
  have c24 : ((2 ^ 24 : Nat) : Rat) = 16777216 := rfl
  rw [c23] at h2
  rw [c24]
  generalize (n : Rat) / d * 2 ^ sh = a at *
  grind

end Selint
