import Verif.Spec.Exceptions
import Verif.Lemmas.Basic
/-! # Substring search in a list of ids -/

namespace Selint

open Spec

theorem strstr_skip {w a b : Str} {c : Char} (hw : w.head? = some c) (ha : c ∉ a) :
    strstr w (a ++ b) = strstr w b := by
  induction a with
  | nil => rfl
  | cons x xs ih =>
    simp only [List.mem_cons, not_or] at ha
    simp only [List.cons_append, strstr]
    rw [ih ha.2]
    cases w with
    | nil => simp at hw
    | cons y ys =>
      simp at hw; subst hw
      simp [List.isPrefixOf, ha.1]

theorem strstr_nil_of_ne {w : Str} (h : w ≠ []) : strstr w [] = false := by
  cases w <;> simp_all [strstr]

theorem prefix_append_cut {w a b : Str} {c : Char} (hc : c ∉ w) :
    w.isPrefixOf (a ++ c :: b) = w.isPrefixOf a := by
  induction w generalizing a with
  | nil => simp
  | cons x xs ih =>
    simp only [List.mem_cons, not_or] at hc
    cases a with
    | nil =>
      have : ¬ x = c := fun h => hc.1 h.symm
      simp [List.isPrefixOf, this]
    | cons y ys => simp [List.isPrefixOf, ih hc.2]

theorem isId_digits_noLetter {s : Str} (h : IsId s) :
    ∃ sev rest, s = sev :: rest ∧ sev ∈ cs!"CSWEF" ∧ (∀ c ∈ cs!"CSWEF", c ∉ rest) ∧ ',' ∉ s ∧
      ' ' ∉ s := by
  obtain ⟨sev, digits, rfl, h1, _, h3⟩ := h
  refine ⟨sev, _, rfl, h1, ?_, ?_, ?_⟩
  · intro c hc hm
    simp only [List.mem_cons] at hm
    rcases hm with hm | hm
    · subst hm; revert hc; decide
    · have := h3 c hm
      revert hc this
      simp only [List.mem_cons, List.not_mem_nil, or_false]
      rintro (rfl | rfl | rfl | rfl | rfl) <;> decide
  · simp only [List.mem_cons, not_or]
    refine ⟨?_, by decide, fun hm => ?_⟩
    · intro h; subst h; revert h1; decide
    · exact absurd (h3 _ hm) (by decide)
  · simp only [List.mem_cons, not_or]
    refine ⟨?_, by decide, fun hm => ?_⟩
    · intro h; subst h; revert h1; decide
    · exact absurd (h3 _ hm) (by decide)

theorem strstr_id_append {w s : Str} (hw : IsId w) (hs : IsId s) (t : Str) :
    strstr w (s ++ t) = (w.isPrefixOf (s ++ t) || strstr w t) := by
  obtain ⟨c, wr, rfl, hc, _, _, _⟩ := isId_digits_noLetter hw
  obtain ⟨sv, sr, rfl, _, hsr, _, _⟩ := isId_digits_noLetter hs
  simp only [List.cons_append, strstr]
  rw [strstr_skip (c := c) (by rfl) (hsr c hc)]

theorem strstr_listing {w : Str} (hw : IsId w) {ids : List Str} {t : Str} (h : Listing ids t)
    (hids : ∀ j ∈ ids, IsId j) : strstr w t = true ↔ ∃ j ∈ ids, w <+: j := by
  have hw0 := hw
  obtain ⟨c, wr, hweq, hc, _, hcomma, hspace⟩ := isId_digits_noLetter hw
  induction h with
  | one id =>
    have := strstr_id_append hw0 (hids id (by simp)) []
    simp only [List.append_nil] at this
    rw [this, strstr_nil_of_ne (by rw [hweq]; simp)]
    simp
  | @cons id ids text sep hsep h ih =>
    have hid := hids id (by simp)
    rw [List.append_assoc, strstr_id_append hw0 hid]
    have hcs : strstr w (sep ++ text) = strstr w text := by
      apply strstr_skip (c := c) (by rw [hweq]; rfl)
      rcases hsep with rfl | rfl <;> (revert hc; simp only [List.mem_cons, List.not_mem_nil, or_false]; rintro (rfl | rfl | rfl | rfl | rfl) <;> decide)
    have hp : w.isPrefixOf (id ++ (sep ++ text)) = w.isPrefixOf id := by
      rcases hsep with rfl | rfl <;> exact prefix_append_cut hcomma
    have ih' : strstr w text = true ↔ ∃ j ∈ ids, w <+: j :=
      ih (fun j hj => hids j (List.mem_cons_of_mem _ hj))
    rw [hcs, hp, Bool.or_eq_true, ih']
    simp [List.isPrefixOf_iff_prefix]

theorem strstr_leading_space {w : Str} (hw : IsId w) (t : Str) :
    strstr w (' ' :: t) = strstr w t := by
  obtain ⟨c, wr, hweq, hc, _, hcomma, hspace⟩ := isId_digits_noLetter hw
  have := strstr_skip (w := w) (a := [' ']) (b := t) (c := c) (by rw [hweq]; rfl) (by
    revert hc; simp only [List.mem_cons, List.not_mem_nil, or_false]
    rintro (rfl | rfl | rfl | rfl | rfl) <;> decide)
  simpa using this

end Selint
