import Verif.Spec.Lex
/-! # The scanner's choice of a rule -/

namespace Selint
open Spec

/-! ## Expressions -/

@[simp] theorem texts_empty {s : Str} : ¬ Texts .empty s := nofun

@[simp] theorem texts_eps {s : Str} : Texts .eps s ↔ s = [] :=
  ⟨fun h => by cases h; rfl, fun h => h ▸ .eps⟩

@[simp] theorem texts_chars {p : Char → Bool} {s : Str} : Texts (.chars p) s ↔ ∃ c, p c = true ∧ s = [c] :=
  ⟨fun h => by cases h with | chars h => exact ⟨_, h, rfl⟩, fun ⟨_, h, e⟩ => e ▸ .chars h⟩

theorem texts_seq {a b : Rx} {s : Str} : Texts (.seq a b) s ↔ ∃ u v, s = u ++ v ∧ Texts a u ∧ Texts b v :=
  ⟨fun h => by cases h with | seq h₁ h₂ => exact ⟨_, _, rfl, h₁, h₂⟩,
    fun ⟨_, _, e, h₁, h₂⟩ => e ▸ .seq h₁ h₂⟩

@[simp] theorem texts_alt {a b : Rx} {s : Str} : Texts (.alt a b) s ↔ Texts a s ∨ Texts b s :=
  ⟨fun h => by cases h with | left h => exact .inl h | right h => exact .inr h,
    fun h => h.elim .left .right⟩

theorem texts_opt {a : Rx} {s : Str} : Texts (.opt a) s ↔ Texts a s ∨ s = [] := by
  simp [Rx.opt]

@[simp] theorem texts_char {c : Char} {s : Str} : Texts (.char c) s ↔ s = [c] := by
  simp [Rx.char]

theorem texts_lit {w s : Str} : Texts (.lit w) s ↔ s = w := by
  induction w generalizing s with
  | nil => simp [Rx.lit]
  | cons c w ih =>
    simp only [Rx.lit, texts_seq, texts_char, ih]
    constructor
    · rintro ⟨_, _, rfl, rfl, rfl⟩; rfl
    · rintro rfl; exact ⟨[c], w, rfl, rfl, rfl⟩

theorem star_chars_all {p : Char → Bool} {r : Rx} {s : Str} (h : Texts r s) (hr : r = .star (.chars p)) :
    ∀ c ∈ s, p c = true := by
  induction h with
  | done => simp
  | more h₁ _ _ ih₂ =>
    cases hr
    obtain ⟨c, hc, rfl⟩ := texts_chars.1 h₁
    simpa [hc] using ih₂ rfl
  | _ => cases hr

theorem texts_star_chars {p : Char → Bool} {s : Str} :
    Texts (.star (.chars p)) s ↔ ∀ c ∈ s, p c = true := by
  refine ⟨fun h => star_chars_all h rfl, fun h => ?_⟩
  induction s with
  | nil => exact .done
  | cons c s ih =>
    exact Texts.more (s := [c]) (.chars (h c (by simp))) (ih fun d hd => h d (by simp [hd]))

theorem texts_plus_chars {p : Char → Bool} {s : Str} :
    Texts (.plus (.chars p)) s ↔ s ≠ [] ∧ ∀ c ∈ s, p c = true := by
  simp only [Rx.plus, texts_seq, texts_chars, texts_star_chars]
  constructor
  · rintro ⟨_, v, rfl, ⟨c, hc, rfl⟩, hv⟩
    simpa [hc] using hv
  · rintro ⟨hne, h⟩
    cases s with
    | nil => exact absurd rfl hne
    | cons c s => exact ⟨[c], s, rfl, ⟨c, h c (by simp), rfl⟩, fun d hd => h d (by simp [hd])⟩

theorem nullable_iff {r : Rx} : r.nullable = true ↔ Texts r [] := by
  induction r with
  | empty => simp [Rx.nullable]
  | eps => simp [Rx.nullable]
  | chars p => simp [Rx.nullable]
  | seq a b iha ihb =>
    simp only [Rx.nullable, Bool.and_eq_true, iha, ihb, texts_seq]
    constructor
    · rintro ⟨h₁, h₂⟩; exact ⟨[], [], rfl, h₁, h₂⟩
    · rintro ⟨u, v, e, h₁, h₂⟩
      obtain ⟨rfl, rfl⟩ := List.append_eq_nil_iff.1 e.symm
      exact ⟨h₁, h₂⟩
  | alt a b iha ihb => simp [Rx.nullable, iha, ihb]
  | star a _ => exact ⟨fun _ => .done, fun _ => rfl⟩

theorem star_cons {a r : Rx} {c : Char} {s t : Str} (h : Texts r t) (hr : r = .star a) (ht : t = c :: s) :
    ∃ u v, s = u ++ v ∧ Texts a (c :: u) ∧ Texts (.star a) v := by
  induction h with
  | done => cases ht
  | @more a' u v h₁ h₂ _ ih₂ =>
    cases hr
    cases u with
    | nil => exact ih₂ rfl ht
    | cons d u =>
      cases ht
      exact ⟨u, v, rfl, h₁, h₂⟩
  | _ => cases hr

theorem deriv_iff {r : Rx} {c : Char} {s : Str} : Texts (r.deriv c) s ↔ Texts r (c :: s) := by
  induction r generalizing s with
  | empty => simp [Rx.deriv]
  | eps => simp [Rx.deriv]
  | chars p =>
    simp only [Rx.deriv]
    split
    · rename_i h
      rw [texts_eps, texts_chars]
      exact ⟨fun e => ⟨c, h, by rw [e]⟩, fun ⟨d, _, e⟩ => (List.cons.inj e).2⟩
    · rename_i h
      refine ⟨fun h' => absurd h' texts_empty, fun h' => ?_⟩
      obtain ⟨d, hd, e⟩ := texts_chars.1 h'
      obtain ⟨rfl, _⟩ := List.cons.inj e
      exact absurd hd h
  | seq a b iha ihb =>
    have key : Texts (.seq a b) (c :: s) ↔
        (∃ u v, s = u ++ v ∧ Texts a (c :: u) ∧ Texts b v) ∨ (Texts a [] ∧ Texts b (c :: s)) := by
      rw [texts_seq]
      constructor
      · rintro ⟨u, v, e, h₁, h₂⟩
        cases u with
        | nil => simp only [List.nil_append] at e; subst e; exact .inr ⟨h₁, h₂⟩
        | cons d u => cases e; exact .inl ⟨u, v, rfl, h₁, h₂⟩
      · rintro (⟨u, v, rfl, h₁, h₂⟩ | ⟨h₁, h₂⟩)
        · exact ⟨c :: u, v, rfl, h₁, h₂⟩
        · exact ⟨[], c :: s, rfl, h₁, h₂⟩
    rw [key]
    simp only [Rx.deriv]
    split
    · rename_i hn
      simp only [texts_alt, texts_seq, iha, ihb, nullable_iff.1 hn, true_and]
    · rename_i hn
      have hn' : ¬ Texts a [] := fun h => hn (nullable_iff.2 h)
      simp only [texts_seq, iha, hn', false_and, or_false]
  | alt a b iha ihb => simp [Rx.deriv, iha, ihb]
  | star a ih =>
    simp only [Rx.deriv, texts_seq, ih]
    constructor
    · rintro ⟨u, v, rfl, h₁, h₂⟩
      exact Texts.more (s := c :: u) h₁ h₂
    · intro h; exact star_cons h rfl rfl

theorem dead_iff {r : Rx} (h : r.dead = true) {s : Str} : ¬ Texts r s := by
  induction r generalizing s with
  | empty => simp
  | eps => cases h
  | chars p => cases h
  | seq a b iha ihb =>
    simp only [Rx.dead, Bool.or_eq_true] at h
    rw [texts_seq]
    rintro ⟨u, v, rfl, h₁, h₂⟩
    exact h.elim (fun h => iha h h₁) (fun h => ihb h h₂)
  | alt a b iha ihb =>
    simp only [Rx.dead, Bool.and_eq_true] at h
    rw [texts_alt]
    exact fun h' => h'.elim (iha h.1) (ihb h.2)
  | star a _ => cases h

theorem longest_none {r : Rx} {s : Str} (h : r.longest s = none) (t : Str) (ht : t <+: s) : ¬ Texts r t := by
  induction s generalizing r t with
  | nil =>
    obtain rfl := List.prefix_nil.1 ht
    simp only [Rx.longest] at h
    split at h
    · cases h
    · rename_i hn; exact fun h' => hn (nullable_iff.2 h')
  | cons c s ih =>
    simp only [Rx.longest] at h
    split at h
    · rename_i hd; exact dead_iff hd
    · split at h
      · cases h
      · rename_i hl
        split at h
        · cases h
        · rename_i hn
          cases t with
          | nil => exact fun h' => hn (nullable_iff.2 h')
          | cons d t =>
            obtain ⟨rfl, ht'⟩ := List.cons_prefix_cons.1 ht
            exact fun h' => ih hl t ht' (deriv_iff.2 h')

theorem longest_some {r : Rx} {s : Str} {n : Nat} (h : r.longest s = some n) :
    n ≤ s.length ∧ Texts r (s.take n) ∧ ∀ t, t <+: s → Texts r t → t.length ≤ n := by
  induction s generalizing r n with
  | nil =>
    simp only [Rx.longest] at h
    split at h
    · rename_i hn
      cases h
      refine ⟨Nat.zero_le _, nullable_iff.1 hn, fun t ht _ => ?_⟩
      obtain rfl := List.prefix_nil.1 ht; simp
    · cases h
  | cons c s ih =>
    simp only [Rx.longest] at h
    split at h
    · cases h
    · split at h
      · rename_i n' hl
        cases h
        obtain ⟨h₁, h₂, h₃⟩ := ih hl
        refine ⟨by simpa using h₁, by simpa using deriv_iff.1 h₂, fun t ht htt => ?_⟩
        cases t with
        | nil => simp
        | cons d t =>
          obtain ⟨rfl, ht'⟩ := List.cons_prefix_cons.1 ht
          simpa using h₃ t ht' (deriv_iff.2 htt)
      · rename_i hl
        split at h
        · rename_i hn
          cases h
          refine ⟨Nat.zero_le _, nullable_iff.1 hn, fun t ht htt => ?_⟩
          cases t with
          | nil => simp
          | cons d t =>
            obtain ⟨rfl, ht'⟩ := List.cons_prefix_cons.1 ht
            exact absurd (deriv_iff.2 htt) (longest_none hl t ht')
        · cases h

/-! ## Rules -/

theorem texts_full {r : LexRule} {m : Str} :
    Texts r.full m ↔ ∃ t c, m = t ++ c ∧ RuleMatches r t c := by
  unfold LexRule.full
  cases he : r.eol
  · constructor
    · intro h; exact ⟨m, [], by simp, .plain he h⟩
    · rintro ⟨t, c, rfl, h⟩
      cases h with
      | plain _ h => simpa using h
      | eol he' _ => rw [he] at he'; cases he'
  · simp only [if_true, texts_seq, texts_char]
    constructor
    · rintro ⟨u, v, rfl, h, rfl⟩; exact ⟨u, _, rfl, .eol he h⟩
    · rintro ⟨t, c, rfl, h⟩
      cases h with
      | plain he' _ => rw [he] at he'; cases he'
      | eol _ h => exact ⟨t, _, rfl, h, rfl⟩

theorem bestRule_none {rules : List LexRule} {s : Str} (h : bestRule rules s = none) {r : LexRule}
    (hr : r ∈ rules) {t : Str} (ht : t <+: s) : ¬ Texts r.full t := by
  induction rules with
  | nil => cases hr
  | cons r' rs ih =>
    simp only [bestRule] at h
    split at h
    · rename_i hl
      rcases List.mem_cons.1 hr with rfl | hr
      · exact longest_none hl t ht
      · exact ih h hr
    · cases h
    · split at h <;> cases h

theorem bestRule_some {rules : List LexRule} {s : Str} {r : LexRule} {n : Nat}
    (h : bestRule rules s = some (r, n)) :
    n ≤ s.length ∧ Texts r.full (s.take n) ∧ ∃ i : Nat, rules[i]? = some r ∧
      ∀ (j : Nat) (r' : LexRule) (t : Str), rules[j]? = some r' → t <+: s → Texts r'.full t →
        t.length ≤ n ∧ (t.length = n → i ≤ j) := by
  induction rules generalizing r n with
  | nil => cases h
  | cons r₀ rs ih =>
    simp only [bestRule] at h
    split at h
    · rename_i hl
      obtain ⟨h₁, h₂, i, hi, hj⟩ := ih h
      refine ⟨h₁, h₂, i + 1, by simpa using hi, fun j r' t hr ht htt => ?_⟩
      cases j with
      | zero =>
        simp only [List.getElem?_cons_zero, Option.some.injEq] at hr
        subst hr
        exact absurd htt (longest_none hl t ht)
      | succ j =>
        obtain ⟨h₃, h₄⟩ := hj j r' t (by simpa using hr) ht htt
        exact ⟨h₃, fun e => by have := h₄ e; omega⟩
    · rename_i n' hl hb
      cases h
      obtain ⟨h₁, h₂, h₃⟩ := longest_some hl
      refine ⟨h₁, h₂, 0, by simp, fun j r' t hr ht htt => ⟨?_, fun _ => Nat.zero_le _⟩⟩
      cases j with
      | zero =>
        simp only [List.getElem?_cons_zero, Option.some.injEq] at hr
        subst hr
        exact h₃ t ht htt
      | succ j =>
        exact absurd htt (bestRule_none hb (List.mem_of_getElem? (by simpa using hr)) ht)
    · rename_i n' r'' n'' hl hb
      obtain ⟨h₁, h₂, i, hi, hj⟩ := ih hb
      obtain ⟨h₁', h₂', h₃'⟩ := longest_some hl
      split at h
      · rename_i hlt
        cases h
        refine ⟨h₁, h₂, i + 1, by simpa using hi, fun j r' t hr ht htt => ?_⟩
        cases j with
        | zero =>
          simp only [List.getElem?_cons_zero, Option.some.injEq] at hr
          subst hr
          have := h₃' t ht htt
          exact ⟨by omega, by omega⟩
        | succ j =>
          obtain ⟨h₃, h₄⟩ := hj j r' t (by simpa using hr) ht htt
          exact ⟨h₃, fun e => by have := h₄ e; omega⟩
      · rename_i hlt
        cases h
        refine ⟨h₁', h₂', 0, by simp, fun j r' t hr ht htt => ⟨?_, fun _ => Nat.zero_le _⟩⟩
        cases j with
        | zero =>
          simp only [List.getElem?_cons_zero, Option.some.injEq] at hr
          subst hr
          exact h₃' t ht htt
        | succ j =>
          have := (hj j r' t (by simpa using hr) ht htt).1
          omega

/-- What the model takes is what the rules say. -/
theorem takes_of_best {rules : List LexRule} {s : Str} {r : LexRule} {n : Nat}
    (h : bestRule rules s = some (r, n)) :
    ∃ i, Takes rules i r (s.take (r.textLength n)) (s.drop (r.textLength n)) := by
  obtain ⟨h₁, h₂, i, hi, hj⟩ := bestRule_some h
  obtain ⟨t, c, e, hm⟩ := texts_full.1 h₂
  have hlen : t.length + c.length = n := by
    have := congrArg List.length e
    simp at this; omega
  have ht : r.textLength n = t.length := by
    unfold LexRule.textLength
    cases hm with
    | plain he _ => simp [he] at hlen ⊢; omega
    | eol he _ => simp [he] at hlen ⊢; omega
  have hs : s = t ++ (c ++ s.drop n) := by
    rw [← List.append_assoc, ← e, List.take_append_drop]
  have htake : s.take t.length = t := by rw [hs]; simp
  have hdrop : s.drop t.length = c ++ s.drop n := by
    conv => lhs; rw [hs]
    simp
  rw [ht, htake, hdrop]
  refine ⟨i, hi, c, hm, List.prefix_append _ _, fun j r' t' c' hr hm' hp => ?_⟩
  rw [← hs] at hp
  have := hj j r' (t' ++ c') hr hp (texts_full.2 ⟨t', c', rfl, hm'⟩)
  simp only [List.length_append] at this
  rwa [hlen]

theorem Spec.RuleMatches.context {r : LexRule} {t c : Str} (h : RuleMatches r t c) :
    c = if r.eol then ['\n'] else [] := by
  cases h <;> simp [*]

/-- The choice is unique. -/
theorem Spec.Takes.unique {rules : List LexRule} {i j : Nat} {r r' : LexRule} {t t' u u' : Str}
    (h : Takes rules i r t u) (h' : Takes rules j r' t' u') (e : t ++ u = t' ++ u') :
    i = j ∧ r = r' ∧ t = t' ∧ u = u' := by
  obtain ⟨hr, c, hm, hc, hmax⟩ := h
  obtain ⟨hr', c', hm', hc', hmax'⟩ := h'
  have p₁ : t' ++ c' <+: t ++ u := e ▸ (List.prefix_append_right_inj t').2 hc'
  have p₂ : t ++ c <+: t' ++ u' := e ▸ (List.prefix_append_right_inj t).2 hc
  have a := hmax j r' t' c' hr' hm' p₁
  have b := hmax' i r t c hr hm p₂
  have hlen : t.length + c.length = t'.length + c'.length := Nat.le_antisymm b.1 a.1
  have hij : i = j := Nat.le_antisymm (a.2 hlen.symm) (b.2 hlen)
  subst hij
  have hrr : r = r' := Option.some.inj (hr.symm.trans hr')
  subst hrr
  have hcc : c = c' := hm.context.trans hm'.context.symm
  subst hcc
  obtain ⟨h₁, h₂⟩ := List.append_inj e (by omega)
  exact ⟨rfl, rfl, h₁, h₂⟩

end Selint
