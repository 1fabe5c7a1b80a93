import Verif.Spec.IfChecks
import Verif.Model.IfChecks
import Verif.Lemmas.Checks
/-! # Lemmas: the comparison of names in require blocks -/

namespace Selint
open Spec

/-- Where two texts first differ. -/
theorem diverge_unique {α : Type} {p r : List α} {x y u v : α} {a b c d : List α}
    (h1 : p ++ x :: a = r ++ u :: c) (h2 : p ++ y :: b = r ++ v :: d) (hxy : x ≠ y) (huv : u ≠ v) :
    p = r ∧ x = u ∧ y = v ∧ a = c ∧ b = d := by
  induction p generalizing r with
  | nil =>
    cases r with
    | nil =>
      simp only [List.nil_append, List.cons.injEq] at h1 h2
      exact ⟨rfl, h1.1, h2.1, h1.2, h2.2⟩
    | cons z r =>
      simp only [List.nil_append, List.cons_append, List.cons.injEq] at h1 h2
      exact absurd (h1.1.trans h2.1.symm) hxy
  | cons w p ih =>
    cases r with
    | nil =>
      simp only [List.nil_append, List.cons_append, List.cons.injEq] at h1 h2
      exact absurd (h1.1.symm.trans h2.1) huv
    | cons z r =>
      simp only [List.cons_append, List.cons.injEq] at h1 h2
      obtain ⟨h3, h4⟩ := ih h1.2 h2.2
      exact ⟨by rw [h1.1, h3], h4⟩

/-- The sort key of what is left of a name; `prev` is the character before. -/
def keyTail (prev : Option Char) (b : Str) : Str :=
  if b = ['t'] && prev = some '_' then ['_'] else sortKey b

theorem sortKey_snoc (q : Str) : sortKey (q ++ cs!"_t") = q ++ cs!"__" := by
  unfold sortKey
  rw [if_pos ⟨q, rfl⟩]
  simp

theorem sortKey_other {s : Str} (h : ¬ cs!"_t" <:+ s) : sortKey s = s := by
  unfold sortKey; rw [if_neg h]

theorem sortKey_append (p b : Str) (hb : b ≠ []) :
    sortKey (p ++ b) = p ++ keyTail p.getLast? b := by
  by_cases h : cs!"_t" <:+ p ++ b
  · obtain ⟨q, hq⟩ := h
    rw [← hq, sortKey_snoc]
    rcases List.eq_nil_or_concat b with rfl | ⟨b', z, rfl⟩
    · exact absurd rfl hb
    · rw [List.concat_eq_append, ← List.append_assoc,
        show q ++ cs!"_t" = (q ++ ['_']) ++ ['t'] by simp] at hq
      obtain ⟨h1, h2⟩ := List.append_inj' hq (by simp)
      cases h2
      rcases List.eq_nil_or_concat b' with rfl | ⟨b'', w, rfl⟩
      · rw [List.append_nil] at h1
        subst h1
        simp [keyTail]
      · rw [List.concat_eq_append, ← List.append_assoc] at h1
        obtain ⟨h3, h2⟩ := List.append_inj' h1 (by simp)
        cases h2
        subst h3
        have : b'' ++ ['_'] ++ ['t'] = b'' ++ cs!"_t" := by simp
        rw [keyTail, if_neg (by
            intro h
            simp only [Bool.and_eq_true, decide_eq_true_eq] at h
            have := congrArg List.length h.1
            simp at this), List.concat_eq_append, List.concat_eq_append, this,
          sortKey_snoc]
        simp
  · rw [sortKey_other h, keyTail, if_neg, sortKey_other]
    · rintro ⟨q, rfl⟩
      exact h ⟨p ++ q, by simp⟩
    · simp only [Bool.and_eq_true, decide_eq_true_eq, not_and]
      rintro rfl hp
      obtain ⟨p', rfl⟩ := List.getLast?_eq_some_iff.1 hp
      exact h ⟨p', by simp⟩

theorem keyTail_headD (prev : Option Char) (b : Str) :
    (keyTail prev b).headD '\x00' = backOverT prev b := by
  unfold keyTail backOverT
  split
  · rfl
  · by_cases h : cs!"_t" <:+ b
    · obtain ⟨q, rfl⟩ := h
      rw [sortKey_snoc]
      cases q <;> rfl
    · rw [sortKey_other h]

theorem keyTail_ne_nil (prev : Option Char) {b : Str} (hb : b ≠ []) : keyTail prev b ≠ [] := by
  unfold keyTail
  split
  · simp
  · by_cases h : cs!"_t" <:+ b
    · obtain ⟨q, rfl⟩ := h
      rw [sortKey_snoc]
      simp
    · rw [sortKey_other h]; exact hb

theorem cons_lt_of_head {x y : Char} {a b : Str} (h : x.toNat < y.toNat) : x :: a < y :: b :=
  List.cons_lt_cons_iff.2 (Or.inl h)

theorem prefix_lt {p b : Str} (hb : b ≠ []) : p < p ++ b := by
  induction p with
  | nil => cases b <;> simp_all
  | cons c p ih => exact List.cons_lt_cons_iff.2 (Or.inr ⟨rfl, ih⟩)

theorem sortKey_lt_append (p b : Str) (hb : b ≠ []) : sortKey p < sortKey (p ++ b) := by
  rw [sortKey_append p b hb]
  by_cases h : cs!"_t" <:+ p
  · obtain ⟨q, rfl⟩ := h
    rw [sortKey_snoc, List.append_assoc]
    exact append_lt_append_left' q _ _ (cons_lt_cons' rfl (cons_lt_of_head (by decide)))
  · rw [sortKey_other h]
    exact prefix_lt (keyTail_ne_nil _ hb)
where
  cons_lt_cons' {x y : Char} {a b : Str} (h : x = y) (h2 : a < b) : x :: a < y :: b :=
    List.cons_lt_cons_iff.2 (Or.inr ⟨h, h2⟩)
  append_lt_append_left' (q a b : Str) (h : a < b) : q ++ a < q ++ b := by
    induction q with
    | nil => exact h
    | cons c q ih => exact cons_lt_cons' rfl ih

theorem not_confused_self (a : Str) : ¬ Confused a a := by
  rintro ⟨q, s, ⟨h1, h2⟩ | ⟨h1, h2⟩⟩ <;>
  · rw [h1, List.append_assoc] at h2
    have := List.append_cancel_left h2
    simp at this

theorem not_confused_append (p b : Str) (hb : b ≠ []) :
    ¬ Confused p (p ++ b) ∧ ¬ Confused (p ++ b) p := by
  have key : ∀ q s, ¬ (p = q ++ cs!"_t" ∧ p ++ b = q ++ cs!"__" ++ s) ∧
      ¬ (p ++ b = q ++ cs!"_t" ∧ p = q ++ cs!"__" ++ s) := by
    intro q s
    constructor
    · rintro ⟨rfl, h⟩
      rw [List.append_assoc, List.append_assoc] at h
      have := List.append_cancel_left h
      simp at this
    · rintro ⟨h, rfl⟩
      have h1 := congrArg List.length h
      have h2 := List.length_pos_iff.2 hb
      simp only [List.length_append, List.length_cons, List.length_nil] at h1
      omega
  constructor
  · rintro ⟨q, s, h | h⟩
    · exact (key q s).1 h
    · exact (key q s).2 h
  · rintro ⟨q, s, h | h⟩
    · exact (key q s).2 h
    · exact (key q s).1 h

theorem confused_diverge {p a b : Str} {x y : Char} (hxy : x ≠ y) :
    Confused (p ++ x :: a) (p ++ y :: b) ↔
      backOverT p.getLast? (x :: a) = backOverT p.getLast? (y :: b) := by
  constructor
  · rintro ⟨q, s, ⟨h1, h2⟩ | ⟨h1, h2⟩⟩
    · obtain ⟨rfl, rfl, rfl, rfl, rfl⟩ := diverge_unique (r := q ++ ['_']) (u := 't') (v := '_')
        (c := []) (d := s) (by simpa using h1) (by simpa using h2) hxy (by decide)
      simp [backOverT]
    · obtain ⟨rfl, rfl, rfl, rfl, rfl⟩ := diverge_unique (r := q ++ ['_']) (u := '_') (v := 't')
        (c := s) (d := []) (by simpa using h2) (by simpa using h1) hxy (by decide)
      simp [backOverT]
  · intro h
    unfold backOverT at h
    split at h <;> split at h
    · rename_i h1 h2
      simp only [Bool.and_eq_true, decide_eq_true_eq] at h1 h2
      have := h1.1.trans h2.1.symm
      simp only [List.cons.injEq] at this
      exact absurd this.1 hxy
    · rename_i h1 h2
      simp only [Bool.and_eq_true, decide_eq_true_eq, List.headD_cons, List.cons.injEq] at h1 h
      obtain ⟨⟨rfl, rfl⟩, hp⟩ := h1
      obtain ⟨p', rfl⟩ := List.getLast?_eq_some_iff.1 hp
      subst h
      exact ⟨p', b, Or.inl ⟨by simp, by simp⟩⟩
    · rename_i h1 h2
      simp only [Bool.and_eq_true, decide_eq_true_eq, List.headD_cons, List.cons.injEq] at h2 h
      obtain ⟨⟨rfl, rfl⟩, hp⟩ := h2
      obtain ⟨p', rfl⟩ := List.getLast?_eq_some_iff.1 hp
      subst h
      exact ⟨p', a, Or.inr ⟨by simp, by simp⟩⟩
    · exact absurd h hxy

theorem append_lt_iff (q a b : Str) : q ++ a < q ++ b ↔ a < b := by
  induction q with
  | nil => rfl
  | cons c q ih =>
    rw [List.cons_append, List.cons_append, List.cons_lt_cons_iff, ih]
    constructor
    · rintro (h | h)
      · exact absurd h (Char.lt_irrefl c)
      · exact h.2
    · exact fun h => Or.inr ⟨rfl, h⟩

theorem backOverT_pos (prev : Option Char) {y : Char} {b : Str} (hy : y ≠ '\x00') :
    0 < (backOverT prev (y :: b)).toNat := by
  unfold backOverT
  split
  · decide
  · show 0 < y.toNat
    rcases Nat.eq_zero_or_pos y.toNat with h | h
    · exact absurd (char_toNat_inj (b := '\x00') h) hy
    · exact h

/-- The comparison of the names, from a common prefix on. -/
theorem compareNames_spec (a b p : Str) (ha : '\x00' ∉ a) (hb : '\x00' ∉ b) :
    (compareNames p.getLast? a b < 0 ↔ NameBefore (p ++ a) (p ++ b)) ∧
    (compareNames p.getLast? a b = 0 ↔ p ++ a = p ++ b ∨ Confused (p ++ a) (p ++ b)) := by
  induction a generalizing b p with
  | nil =>
    cases b with
    | nil =>
      have : compareNames p.getLast? [] [] = 0 := by simp [compareNames]
      rw [this]
      exact ⟨by simp [NameBefore, List.lt_irrefl], by simp⟩
    | cons y b =>
      have hpos := backOverT_pos p.getLast? (b := b) (y := y) (fun e => hb (by simp [e]))
      have hz : (backOverT p.getLast? []).toNat = 0 := by simp [backOverT]
      have : compareNames p.getLast? [] (y :: b) < 0 := by
        rw [compareNames.eq_2 _ _ _ (by simp)]; omega
      have hnc := (not_confused_append p (y :: b) (by simp)).1
      rw [List.append_nil]
      refine ⟨⟨fun _ => ⟨sortKey_lt_append _ _ (by simp), hnc⟩, fun _ => this⟩,
        ⟨fun h => by omega, ?_⟩⟩
      rintro (h | h)
      · have := congrArg List.length h
        simp at this
      · exact absurd h hnc
  | cons x a ih =>
    cases b with
    | nil =>
      have hpos := backOverT_pos p.getLast? (b := a) (y := x) (fun e => ha (by simp [e]))
      have hz : (backOverT p.getLast? []).toNat = 0 := by simp [backOverT]
      have : 0 < compareNames p.getLast? (x :: a) [] := by
        rw [compareNames.eq_2 _ _ _ (by simp)]; omega
      have hnc := (not_confused_append p (x :: a) (by simp)).2
      rw [List.append_nil]
      refine ⟨⟨fun h => by omega, fun h => ?_⟩, ⟨fun h => by omega, ?_⟩⟩
      · exact absurd h.1 (List.lt_asymm (sortKey_lt_append p (x :: a) (by simp)))
      · rintro (h | h)
        · have := congrArg List.length h
          simp at this
        · exact absurd h hnc
    | cons y b =>
      rw [compareNames]
      by_cases hxy : x = y
      · subst hxy
        rw [if_pos rfl]
        have := ih b (p ++ [x]) (fun e => ha (by simp [e])) (fun e => hb (by simp [e]))
        simpa using this
      · rw [if_neg hxy]
        have hc := confused_diverge (p := p) (a := a) (b := b) hxy
        have hne : p ++ x :: a ≠ p ++ y :: b := by
          intro h; have := List.append_cancel_left h; simp at this; exact hxy this.1
        have hlt : (backOverT p.getLast? (x :: a)).toNat < (backOverT p.getLast? (y :: b)).toNat →
            sortKey (p ++ x :: a) < sortKey (p ++ y :: b) := by
          intro h
          rw [sortKey_append _ _ (by simp), sortKey_append _ _ (by simp), append_lt_iff]
          rw [← keyTail_headD, ← keyTail_headD] at h
          obtain ⟨u, us, hu⟩ := List.exists_cons_of_ne_nil (keyTail_ne_nil p.getLast? (b := x :: a) (by simp))
          obtain ⟨v, vs, hv⟩ := List.exists_cons_of_ne_nil (keyTail_ne_nil p.getLast? (b := y :: b) (by simp))
          rw [hu, hv] at h ⊢
          exact cons_lt_of_head h
        have hgt : (backOverT p.getLast? (y :: b)).toNat < (backOverT p.getLast? (x :: a)).toNat →
            sortKey (p ++ y :: b) < sortKey (p ++ x :: a) := by
          intro h
          rw [sortKey_append _ _ (by simp), sortKey_append _ _ (by simp), append_lt_iff]
          rw [← keyTail_headD, ← keyTail_headD] at h
          obtain ⟨u, us, hu⟩ := List.exists_cons_of_ne_nil (keyTail_ne_nil p.getLast? (b := x :: a) (by simp))
          obtain ⟨v, vs, hv⟩ := List.exists_cons_of_ne_nil (keyTail_ne_nil p.getLast? (b := y :: b) (by simp))
          rw [hu, hv] at h ⊢
          exact cons_lt_of_head h
        constructor
        · unfold NameBefore
          constructor
          · intro h
            exact ⟨hlt (by omega), fun e => by have := hc.1 e; rw [this] at h; omega⟩
          · rintro ⟨h1, h2⟩
            have h3 : (backOverT p.getLast? (x :: a)).toNat ≠ (backOverT p.getLast? (y :: b)).toNat :=
              fun e => h2 (hc.2 (char_toNat_inj e))
            have h4 : ¬ (backOverT p.getLast? (y :: b)).toNat < (backOverT p.getLast? (x :: a)).toNat :=
              fun e => List.lt_asymm (hgt e) h1
            omega
        · constructor
          · intro h
            exact Or.inr (hc.2 (char_toNat_inj (by omega)))
          · rintro (h | h)
            · exact absurd h hne
            · rw [hc.1 h]; omega

/-- For names that remain different within the shorter one when `_t` is taken off, the
order is that of the names without `_t`. -/
theorem nameBefore_withoutT {a b : Str} (h1 : ¬ withoutT a <+: withoutT b)
    (h2 : ¬ withoutT b <+: withoutT a) : NameBefore a b ↔ withoutT a < withoutT b := by
  have hk : ∀ s, ∃ e, sortKey s = withoutT s ++ e ∧ s.take (withoutT s).length = withoutT s := by
    intro s
    unfold sortKey withoutT
    split
    · exact ⟨_, rfl, by simp⟩
    · exact ⟨[], by simp, by simp⟩
  obtain ⟨ea, ha, ha2⟩ := hk a
  obtain ⟨eb, hb, hb2⟩ := hk b
  have hdiv : ∀ (u v : Str), ¬ u <+: v → ¬ v <+: u →
      ∃ p x y a b, u = p ++ x :: a ∧ v = p ++ y :: b ∧ x ≠ y := by
    intro u
    induction u with
    | nil => intro v h; simp at h
    | cons x u ih =>
      intro v h1 h2
      cases v with
      | nil => simp at h2
      | cons y v =>
        by_cases hxy : x = y
        · subst hxy
          obtain ⟨p, x', y', a, b, rfl, rfl, h⟩ := ih v (fun e => h1 (by simpa using e))
            (fun e => h2 (by simpa using e))
          exact ⟨x :: p, x', y', a, b, rfl, rfl, h⟩
        · exact ⟨[], x, y, u, v, rfl, rfl, hxy⟩
  obtain ⟨p, x, y, u, v, hu, hv, hxy⟩ := hdiv _ _ h1 h2
  have hlt : sortKey a < sortKey b ↔ withoutT a < withoutT b := by
    rw [ha, hb, hu, hv, List.append_assoc, List.append_assoc, append_lt_iff, append_lt_iff,
      List.cons_append, List.cons_append, List.cons_lt_cons_iff, List.cons_lt_cons_iff]
    simp [hxy]
  have hpre : ∀ q s : Str, q <+: withoutT (q ++ cs!"__" ++ s) := by
    intro q s
    unfold withoutT
    split
    · rw [List.append_assoc, List.take_append, List.take_of_length_le (by simp; omega)]
      exact List.prefix_append _ _
    · rw [List.append_assoc]; exact List.prefix_append _ _
  have hq : ∀ q : Str, withoutT (q ++ cs!"_t") = q := by
    intro q; unfold withoutT; rw [if_pos ⟨q, rfl⟩]; simp
  have hnc : ¬ Confused a b := by
    rintro ⟨q, s, ⟨rfl, rfl⟩ | ⟨rfl, rfl⟩⟩
    · exact h1 (by rw [hq]; exact hpre q s)
    · exact h2 (by rw [hq]; exact hpre q s)
  unfold NameBefore
  rw [hlt]
  exact ⟨fun h => h.1, fun h => ⟨h, hnc⟩⟩

end Selint
