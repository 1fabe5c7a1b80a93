import Verif.Model.Basic
/-! # Lemmas about C string functions -/

namespace Selint

theorem char_toNat_inj {a b : Char} (h : a.toNat = b.toNat) : a = b := by
  have : a.val.toNat = b.val.toNat := h
  exact Char.ext (UInt32.toNat_inj.mp this)

@[simp] theorem strcmp_self (a : Str) : strcmp a a = 0 := by
  induction a with
  | nil => rfl
  | cons c cs ih => simp [strcmp, ih]

@[simp] theorem strcmp_eq_zero {a b : Str} : strcmp a b = 0 ↔ a = b := by
  fun_induction strcmp a b <;> grind

theorem strcmp_antisymm (a b : Str) : strcmp a b = - strcmp b a := by
  fun_induction strcmp a b with
  | case1 => rfl
  | case2 => rfl
  | case3 => rfl
  | case4 a as bs ih => simp [strcmp, ih]
  | case5 a as b bs h hlt => 
    have : ¬ b.toNat < a.toNat := by omega
    simp [strcmp, Ne.symm h, this]
  | case6 a as b bs h hlt => 
    have h1 : a.toNat ≠ b.toNat := fun he => h (char_toNat_inj he)
    have : b.toNat < a.toNat := by omega
    simp [strcmp, Ne.symm h, this]

theorem strcmp_lt_trans {a b c : Str} (h1 : strcmp a b < 0) (h2 : strcmp b c < 0) :
    strcmp a c < 0 := by
  induction a generalizing b c with
  | nil => 
    cases b with
    | nil => simp [strcmp] at h1
    | cons b bs => cases c with
      | nil => simp [strcmp] at h2
      | cons c cs => simp [strcmp]
  | cons a as ih =>
    cases b with
    | nil => simp [strcmp] at h1
    | cons b bs => cases c with
      | nil => simp [strcmp] at h2
      | cons c cs =>
        simp only [strcmp] at h1 h2 ⊢
        by_cases hab : a = b
        · subst hab
          simp only [if_true] at h1
          by_cases hac : a = c
          · subst hac
            simp only [if_true] at h2 ⊢
            exact ih h1 h2
          · simp only [hac, if_false] at h2 ⊢; exact h2
        · by_cases hbc : b = c
          · subst hbc
            simp only [hab, if_false] at h1 ⊢; exact h1
          · simp only [hab, hbc, if_false] at h1 h2
            have h1' : a.toNat < b.toNat := by
              by_cases h : a.toNat < b.toNat
              · exact h
              · simp [h] at h1
            have h2' : b.toNat < c.toNat := by
              by_cases h : b.toNat < c.toNat
              · exact h
              · simp [h] at h2
            have h3 : a ≠ c := by intro h; subst h; omega
            have : a.toNat < c.toNat := by omega
            simp [h3, this]

theorem strInSl_iff {s : Str} {l : List Str} : strInSl s l = true ↔ s ∈ l := by
  induction l with
  | nil => simp [strInSl]
  | cons x xs ih => simp only [strInSl, strcmp_eq_zero]; grind

theorem strstr_iff {n h : Str} : strstr n h = true ↔ n <:+: h := by
  induction h with
  | nil => simp [strstr]
  | cons x xs ih =>
    simp only [strstr, Bool.or_eq_true, List.isPrefixOf_iff_prefix, ih, List.infix_cons_iff]

instance (n h : Str) : Decidable (n <:+: h) := decidable_of_iff _ strstr_iff

end Selint
