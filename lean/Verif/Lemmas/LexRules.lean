import Verif.Lemmas.Lex
import Verif.Lemmas.ParseShape
import Verif.Spec.Exceptions
/-! # What the rules of lex.l match -/

namespace Selint
open Spec

namespace Rx

/-- No text of the expression contains the character. -/
def avoids (c : Char) : Rx → Bool
  | empty => true
  | eps => true
  | chars p => !p c
  | seq a b => a.avoids c && b.avoids c
  | alt a b => a.avoids c && b.avoids c
  | star a => a.avoids c

/-- Texts of the expression can begin with the character. -/
def starts (c : Char) : Rx → Bool
  | empty => false
  | eps => false
  | chars p => p c
  | seq a b => a.starts c || (a.nullable && b.starts c)
  | alt a b => a.starts c || b.starts c
  | star a => a.starts c

/-- The expression after a text. -/
def after (r : Rx) : Str → Rx
  | [] => r
  | c :: s => (r.deriv c).after s

end Rx

theorem avoids_texts {c : Char} {r : Rx} {s : Str} (h : Texts r s) (ha : r.avoids c = true) : c ∉ s := by
  induction h with
  | eps => simp
  | chars hp =>
    simp only [Rx.avoids, Bool.not_eq_true'] at ha
    intro hm
    obtain rfl := List.mem_singleton.1 hm
    rw [hp] at ha; cases ha
  | seq _ _ ih₁ ih₂ =>
    simp only [Rx.avoids, Bool.and_eq_true] at ha
    simp [ih₁ ha.1, ih₂ ha.2]
  | left _ ih => simp only [Rx.avoids, Bool.and_eq_true] at ha; exact ih ha.1
  | right _ ih => simp only [Rx.avoids, Bool.and_eq_true] at ha; exact ih ha.2
  | done => simp
  | more _ _ ih₁ ih₂ => simp [ih₁ (by simpa [Rx.avoids] using ha), ih₂ ha]

theorem starts_texts {r : Rx} {t : Str} (h : Texts r t) {c : Char} {s : Str} (e : t = c :: s) :
    r.starts c = true := by
  induction h generalizing s with
  | eps => cases e
  | chars hp => cases e; exact hp
  | @seq a b u v h₁ _ ih₁ ih₂ =>
    simp only [Rx.starts, Bool.or_eq_true, Bool.and_eq_true]
    cases u with
    | nil => exact .inr ⟨nullable_iff.2 h₁, ih₂ e⟩
    | cons d u => cases e; exact .inl (ih₁ rfl)
  | left _ ih => simp only [Rx.starts, Bool.or_eq_true]; exact .inl (ih e)
  | right _ ih => simp only [Rx.starts, Bool.or_eq_true]; exact .inr (ih e)
  | done => cases e
  | @more a u v h₁ _ ih₁ ih₂ =>
    cases u with
    | nil => exact ih₂ e
    | cons d u => cases e; exact ih₁ rfl

theorem after_iff {r : Rx} {w s : Str} : Texts (r.after w) s ↔ Texts r (w ++ s) := by
  induction w generalizing r with
  | nil => rfl
  | cons c w ih => simp only [Rx.after, ih, deriv_iff, List.cons_append]

/-- A text of word characters in front of `w ++ rest`, where a word ends after `w`. -/
theorem word_end {p : Char → Bool} {t w rest : Str} (ht : ∀ c ∈ t, p c = true) (hp : t <+: w ++ rest)
    (hr : ∀ c, rest.head? = some c → p c = false) : t <+: w := by
  induction t generalizing w with
  | nil => exact List.nil_prefix
  | cons c t ih =>
    cases w with
    | nil =>
      cases rest with
      | nil => simp at hp
      | cons d rest =>
        obtain ⟨rfl, _⟩ := List.cons_prefix_cons.1 hp
        have := ht c (by simp)
        rw [hr c rfl] at this; cases this
    | cons d w =>
      obtain ⟨rfl, hp'⟩ := List.cons_prefix_cons.1 hp
      exact List.cons_prefix_cons.2 ⟨rfl, ih (fun e he => ht e (by simp [he])) hp'⟩

/-! ## Words -/

theorem texts_string {s : Str} :
    Texts rxString s ↔ ∃ c r, s = c :: r ∧ lxWordStart c = true ∧ ∀ d ∈ r, lxWord d = true := by
  simp only [rxString, texts_seq, texts_chars, texts_star_chars]
  constructor
  · rintro ⟨_, v, rfl, ⟨c, hc, rfl⟩, hv⟩; exact ⟨c, v, rfl, hc, hv⟩
  · rintro ⟨c, r, rfl, hc, hr⟩; exact ⟨[c], r, rfl, ⟨c, hc, rfl⟩, hr⟩

theorem texts_numString {s : Str} :
    Texts rxNumString s ↔
      ∃ c r, s = c :: r ∧ (lxDigit c || lxWordStart c) = true ∧ ∀ d ∈ r, lxWord d = true := by
  simp only [rxNumString, texts_seq, texts_chars, texts_star_chars]
  constructor
  · rintro ⟨_, v, rfl, ⟨c, hc, rfl⟩, hv⟩; exact ⟨c, v, rfl, hc, hv⟩
  · rintro ⟨c, r, rfl, hc, hr⟩; exact ⟨[c], r, rfl, ⟨c, hc, rfl⟩, hr⟩

theorem wordStart_word {c : Char} (h : lxWordStart c = true) : lxWord c = true := by
  simp only [lxWordStart, lxWord, Bool.or_eq_true] at *; grind

theorem digit_word {c : Char} (h : lxDigit c = true) : lxWord c = true := by
  simp only [lxWord, Bool.or_eq_true] at *; grind

theorem hex_word {c : Char} (h : lxHex c = true) : lxWord c = true := by
  simp only [lxHex, lxWord, lxDigit, lxAlpha, Bool.or_eq_true, decide_eq_true_eq, Char.le_def] at *
  have e1 : 'A'.val.toNat = 65 := rfl
  have e2 : 'F'.val.toNat = 70 := rfl
  have e3 : 'Z'.val.toNat = 90 := rfl
  have e4 : 'a'.val.toNat = 97 := rfl
  have e5 : 'f'.val.toNat = 102 := rfl
  have e6 : 'z'.val.toNat = 122 := rfl
  simp only [UInt32.le_iff_toNat_le] at *
  grind

theorem digit_not_start {c : Char} (h : lxWordStart c = true) : lxDigit c = false := by
  cases hd : lxDigit c
  · rfl
  · exfalso
    simp only [lxWordStart, lxDigit, lxAlpha, Bool.or_eq_true, decide_eq_true_eq, Char.le_def,
      beq_iff_eq, UInt32.le_iff_toNat_le] at *
    have e1 : '0'.val.toNat = 48 := rfl
    have e2 : '9'.val.toNat = 57 := rfl
    have e3 : 'A'.val.toNat = 65 := rfl
    have e4 : 'a'.val.toNat = 97 := rfl
    have e5 : '$'.val.toNat = 36 := rfl
    have e6 : '/'.val.toNat = 47 := rfl
    rcases h with (h | h) | h
    · omega
    · subst h; omega
    · subst h; omega

theorem spelling_word (k : Keyword) :
    ∃ c r, k.spelling = c :: r ∧ lxWordStart c = true ∧ ∀ d ∈ r, lxWord d = true := by
  cases k <;> exact ⟨_, _, rfl, by decide, by decide⟩

theorem mem_allKeywords (k : Keyword) : k ∈ allKeywords := by cases k <;> decide

theorem spelling_nodup : (allKeywords.map Keyword.spelling).Nodup := by decide

/-! ## Positions of the rules -/

/-- The rule of a reserved word. -/
def kwRule (k : Keyword) : LexRule := ⟨.lit k.spelling, false, fun _ => some (.kw k)⟩

/-- The rule of a punctuation mark. -/
def punctRule (p : Punct) : LexRule := ⟨.lit p.spelling, false, fun _ => some (.p p)⟩

/-- The rules one by one. -/
inductive RuleAt : Nat → LexRule → Prop
  | kw {j : Nat} {k : Keyword} (h : allKeywords[j]? = some k) (hj : j < 56) : RuleAt j (kwRule k)
  | version : RuleAt 56 ⟨rxVersion, false, fun t => some (.versionNo t)⟩
  | number : RuleAt 57 ⟨rxNumber, false, fun t => some (.number t)⟩
  | string : RuleAt 58 ⟨rxString, false, fun t => some (.string t)⟩
  | numString : RuleAt 59 ⟨rxNumString, false, fun t => some (.numString t)⟩
  | ipv4 : RuleAt 60 ⟨rxIpv4, false, fun t => some (.ipv4 t)⟩
  | ipv6 : RuleAt 61 ⟨rxIpv6, false, fun t => some (.ipv6 t)⟩
  | quoted : RuleAt 62 ⟨rxQuoted, false, fun t => some (.quoted t)⟩
  | fileType : RuleAt 63 ⟨rxFileType, false, fun _ => some .fileType⟩
  | punct {j : Nat} {p : Punct} (h : allPuncts[j]? = some p) : RuleAt (j + 64) (punctRule p)
  | command : RuleAt 83 ⟨rxCommand, true, fun t => some (.command t)⟩
  | comment : RuleAt 84 ⟨rxComment, true, fun _ => some .comment⟩
  | dnl : RuleAt 85 ⟨rxDnl, true, fun _ => none⟩
  | space : RuleAt 86 ⟨rxSpace, false, fun _ => none⟩
  | unknown : RuleAt 87 ⟨.chars lxAny, false, unknownToken⟩

theorem ruleAt {j : Nat} {r : LexRule} (h : lexRules[j]? = some r) : RuleAt j r := by
  have lk : keywordRules.length = 56 := rfl
  have lw : wordRules.length = 8 := rfl
  have lp : punctRules.length = 19 := rfl
  have ll : lastRules.length = 5 := rfl
  unfold lexRules at h
  rw [List.getElem?_append] at h
  split at h
  · rw [List.getElem?_append] at h
    split at h
    · rw [List.getElem?_append] at h
      split at h
      · rename_i hj
        simp only [keywordRules, List.getElem?_map, Option.map_eq_some_iff] at h
        obtain ⟨k, hk, rfl⟩ := h
        exact .kw hk (by omega)
      · rename_i hj hj'
        rw [lk] at h hj'
        obtain ⟨i, rfl⟩ := Nat.exists_eq_add_of_le (Nat.le_of_not_lt hj')
        simp only [Nat.add_sub_cancel_left] at h
        simp only [List.length_append, lk, lw] at hj
        match i, hj, h with
        | 0, _, h => cases h; exact .version
        | 1, _, h => cases h; exact .number
        | 2, _, h => cases h; exact .string
        | 3, _, h => cases h; exact .numString
        | 4, _, h => cases h; exact .ipv4
        | 5, _, h => cases h; exact .ipv6
        | 6, _, h => cases h; exact .quoted
        | 7, _, h => cases h; exact .fileType
        | i + 8, hj, _ => omega
    · rename_i hj hj'
      simp only [List.length_append, lk, lw, lp] at h hj hj'
      obtain ⟨i, rfl⟩ := Nat.exists_eq_add_of_le (Nat.le_of_not_lt hj')
      simp only [Nat.add_sub_cancel_left, punctRules, List.getElem?_map, Option.map_eq_some_iff] at h
      obtain ⟨p, hp, rfl⟩ := h
      rw [Nat.add_comm]
      exact .punct hp
  · rename_i hj
    simp only [List.length_append, lk, lw, lp] at h hj
    obtain ⟨i, rfl⟩ := Nat.exists_eq_add_of_le (Nat.le_of_not_lt hj)
    simp only [Nat.add_sub_cancel_left] at h
    match i, h with
    | 0, h => cases h; exact .command
    | 1, h => cases h; exact .comment
    | 2, h => cases h; exact .dnl
    | 3, h => cases h; exact .space
    | 4, h => cases h; exact .unknown
    | i + 5, h => simp [lastRules] at h

theorem ruleAt_iff {j : Nat} {r : LexRule} : lexRules[j]? = some r ↔ RuleAt j r := by
  refine ⟨ruleAt, fun h => ?_⟩
  cases h with
  | kw h hj =>
    have lk : keywordRules.length = 56 := rfl
    have lw : wordRules.length = 8 := rfl
    have lp : punctRules.length = 19 := rfl
    unfold lexRules
    rw [List.getElem?_append_left (by simp [lk, lw, lp]; omega),
      List.getElem?_append_left (by simp [lk, lw]; omega), List.getElem?_append_left (by omega)]
    simp [keywordRules, h, kwRule]
  | @punct j p h =>
    have hj : j < 19 := by
      have := (List.getElem?_eq_some_iff.1 h).1
      exact this
    have lk : keywordRules.length = 56 := rfl
    have lw : wordRules.length = 8 := rfl
    have lp : punctRules.length = 19 := rfl
    unfold lexRules
    rw [List.getElem?_append_left (by simp [lk, lw, lp]; omega),
      List.getElem?_append_right (by simp [lk, lw])]
    simp [lk, lw, punctRules, h, punctRule]
  | _ => rfl

/-! ## Steps -/

/-- No rule matches the empty text. -/
theorem rx_nonempty {j : Nat} {r : LexRule} (h : RuleAt j r) : ¬ Texts r.rx [] := by
  intro ht
  have hn := nullable_iff.2 ht
  cases h with
  | @kw j k h _ => cases k <;> cases hn
  | @punct j p h => cases p <;> cases hn
  | _ => cases hn

/-- Some rule matches. -/
theorem some_rule (c : Char) : ∃ j r, RuleAt j r ∧ RuleMatches r [c] [] := by
  by_cases h : c = '\n'
  · exact ⟨_, _, .space, .plain rfl (texts_chars.2 ⟨c, by simp [h], rfl⟩)⟩
  · exact ⟨_, _, .unknown, .plain rfl (texts_chars.2 ⟨c, by simp [lxAny, h], rfl⟩)⟩

theorem ruleMatches_nonempty {j : Nat} {r : LexRule} {t c : Str} (hr : RuleAt j r) (h : RuleMatches r t c) :
    t ≠ [] := by
  rintro rfl
  cases h with
  | plain _ h => exact rx_nonempty hr h
  | eol _ h => exact rx_nonempty hr h

theorem lexStep_total {s : Str} (hs : s ≠ []) : ∃ t text rest, lexStep s = .step t text rest := by
  unfold lexStep
  cases hb : bestRule lexRules s with
  | none =>
    cases s with
    | nil => exact absurd rfl hs
    | cons c s =>
      obtain ⟨j, r, hr, hm⟩ := some_rule c
      exact absurd (texts_full.2 ⟨[c], [], rfl, hm⟩)
        (bestRule_none hb (List.mem_of_getElem? (ruleAt_iff.2 hr)) ⟨s, rfl⟩)
  | some rn =>
    obtain ⟨r, n⟩ := rn
    obtain ⟨i, hr, c, hm, _⟩ := takes_of_best hb
    have := ruleMatches_nonempty (ruleAt hr) hm
    simp only
    split
    · rename_i h0; rw [h0] at this; exact absurd rfl this
    · exact ⟨_, _, _, rfl⟩

theorem lexStep_takes {s : Str} {t : Option Token} {text rest : Str} (h : lexStep s = .step t text rest) :
    s = text ++ rest ∧ text ≠ [] ∧ ∃ i r, Takes lexRules i r text rest ∧ t = r.act text := by
  unfold lexStep at h
  split at h
  · cases h
  · rename_i r n hb
    simp only at h
    split at h
    · cases h
    · cases h
      obtain ⟨i, ht⟩ := takes_of_best hb
      obtain ⟨hr, c, hm, _⟩ := id ht
      exact ⟨(List.take_append_drop _ _).symm, ruleMatches_nonempty (ruleAt hr) hm, i, r, ht, rfl⟩

theorem lexStep_of_takes {i : Nat} {r : LexRule} {text rest : Str} (h : Takes lexRules i r text rest) :
    lexStep (text ++ rest) = .step (r.act text) text rest := by
  have hne : text ≠ [] := by
    obtain ⟨hr, c, hm, _⟩ := h
    exact ruleMatches_nonempty (ruleAt hr) hm
  obtain ⟨t, text', rest', hs⟩ := lexStep_total (s := text ++ rest) (by simp [hne])
  obtain ⟨e, _, i', r', ht, rfl⟩ := lexStep_takes hs
  obtain ⟨rfl, rfl, rfl, rfl⟩ := h.unique ht e
  exact hs

theorem lexFrom_scans {fuel line : Nat} {s : Str} (hf : s.length ≤ fuel) :
    ∃ ts, lexFrom fuel line s = some ts ∧ Scans lexRules line s ts := by
  induction fuel generalizing line s with
  | zero =>
    obtain rfl := List.length_eq_zero_iff.1 (Nat.le_zero.1 hf)
    exact ⟨[], rfl, .nil⟩
  | succ fuel ih =>
    cases s with
    | nil => exact ⟨[], rfl, .nil⟩
    | cons c s =>
      obtain ⟨t, text, rest, hs⟩ := lexStep_total (s := c :: s) (by simp)
      obtain ⟨e, hne, i, r, ht, ha⟩ := lexStep_takes hs
      have hl : rest.length ≤ fuel := by
        have h₁ := congrArg List.length e
        have h₂ := List.length_pos_iff.2 hne
        simp at h₁ hf; omega
      obtain ⟨ts, h₁, h₂⟩ := ih (line := line + newlines text) hl
      simp only [lexFrom, hs, h₁]
      rw [e]
      cases t with
      | none => exact ⟨ts, rfl, .skip ht hne ha.symm h₂⟩
      | some t => exact ⟨_, rfl, .token ht hne ha.symm h₂⟩

theorem Spec.Scans.unique {rules : List LexRule} {n : Nat} {s s' : Str} {ts ts' : List (Nat × Token)}
    (h : Scans rules n s ts) (h' : Scans rules n s' ts') (e : s = s') : ts = ts' := by
  induction h generalizing s' ts' with
  | nil =>
    cases h' with
    | nil => rfl
    | skip _ hne => simp [hne] at e
    | token _ hne => simp [hne] at e
  | skip h hne ha _ ih =>
    cases h' with
    | nil => simp [hne] at e
    | skip h' _ _ hr' =>
      obtain ⟨rfl, rfl, rfl, rfl⟩ := h.unique h' e
      exact ih hr' rfl
    | token h' _ ha' _ =>
      obtain ⟨rfl, rfl, rfl, rfl⟩ := h.unique h' e
      rw [ha] at ha'; cases ha'
  | token h hne ha _ ih =>
    cases h' with
    | nil => simp [hne] at e
    | skip h' _ ha' hr' =>
      obtain ⟨rfl, rfl, rfl, rfl⟩ := h.unique h' e
      rw [ha] at ha'; cases ha'
    | token h' _ ha' hr' =>
      obtain ⟨rfl, rfl, rfl, rfl⟩ := h.unique h' e
      rw [ha] at ha'; cases ha'
      rw [ih hr' rfl]

/-- Construct the choice of a rule. -/
theorem takes_intro {i : Nat} {r : LexRule} {text rest c : Str} (hr : RuleAt i r)
    (hm : RuleMatches r text c) (hc : c <+: rest)
    (h : ∀ (j : Nat) (r' : LexRule) (t' c' : Str), RuleAt j r' → Texts r'.rx t' → RuleMatches r' t' c' →
      t' ++ c' <+: text ++ rest →
        t'.length + c'.length ≤ text.length + c.length ∧
        (t'.length + c'.length = text.length + c.length → i ≤ j)) :
    Takes lexRules i r text rest :=
  ⟨ruleAt_iff.2 hr, c, hm, hc, fun j r' t' c' hr' hm' hp =>
    h j r' t' c' (ruleAt hr') (by cases hm' <;> assumption) hm' hp⟩

/-- A rule whose texts cannot begin like this does not match. -/
theorem no_start {j : Nat} {r : LexRule} {t c rest : Str} {d : Char} (hr : RuleAt j r)
    (ht : Texts r.rx t) (hp : t ++ c <+: d :: rest) (hs : r.rx.starts d = false) : False := by
  cases t with
  | nil => exact rx_nonempty hr ht
  | cons e t =>
    obtain ⟨rfl, _⟩ := List.cons_prefix_cons.1 (List.cons_append ▸ hp)
    rw [starts_texts ht rfl] at hs; cases hs

end Selint
