import Verif.Lemmas.LexTokens
import Verif.Spec.Tokens
/-! # The rules of lex.l match what is written for the tokens -/

namespace Selint
open Spec

/-! ## Characters -/

theorem digit_iff {c : Char} : lxDigit c = true ↔ c.isDigit = true := by
  unfold lxDigit Char.isDigit
  simp only [decide_eq_true_eq, Char.le_def, Bool.and_eq_true]

theorem alpha_iff {c : Char} : lxAlpha c = true ↔ c.isAlpha = true := by
  unfold lxAlpha Char.isAlpha Char.isUpper Char.isLower
  simp only [Bool.or_eq_true, decide_eq_true_eq, Char.le_def, Bool.and_eq_true]
  grind

theorem word_iff {c : Char} : lxWord c = true ↔ WordChar c := by
  unfold lxWord WordChar
  simp only [Bool.or_eq_true, beq_iff_eq, List.mem_cons, List.not_mem_nil, or_false, digit_iff, alpha_iff]
  grind

theorem wordStart_iff {c : Char} : lxWordStart c = true ↔ (c.isAlpha = true ∨ c ∈ cs!"$/") := by
  unfold lxWordStart
  simp only [Bool.or_eq_true, beq_iff_eq, List.mem_cons, List.not_mem_nil, or_false, alpha_iff]
  grind

theorem quoted_iff {c : Char} :
    lxQuoted c = true ↔ (c.isAlpha = true ∨ c.isDigit = true ∨ c ∈ cs!"_.-:~$") := by
  unfold lxQuoted
  simp only [Bool.or_eq_true, beq_iff_eq, List.mem_cons, List.not_mem_nil, or_false, alpha_iff, digit_iff]
  grind

theorem range_mem {c : Char} {l : List Char} {a b : Nat} (h₁ : a ≤ c.toNat) (h₂ : c.toNat ≤ b)
    (h : ∀ i, a ≤ i → i ≤ b → ∃ d ∈ l, d.toNat = i) : c ∈ l := by
  obtain ⟨d, hd, e⟩ := h _ h₁ h₂
  have : c = d := Char.ext (UInt32.toNat_inj.1 e.symm)
  exact this ▸ hd

theorem hex_iff {c : Char} : lxHex c = true ↔ IsHex c := by
  unfold lxHex IsHex
  simp only [Bool.or_eq_true, decide_eq_true_eq, digit_iff, or_assoc, Char.le_def, UInt32.le_iff_toNat_le]
  constructor
  · rintro (h | h | h)
    · exact .inl h
    · have h' : c ∈ cs!"ABCDEF" := range_mem (a := 65) (b := 70) h.1 h.2 (by
        intro i h₁ h₂
        have : i = 65 ∨ i = 66 ∨ i = 67 ∨ i = 68 ∨ i = 69 ∨ i = 70 := by omega
        rcases this with rfl | rfl | rfl | rfl | rfl | rfl <;> decide)
      simp only [List.mem_cons, List.not_mem_nil, or_false] at h' ⊢
      grind
    · have h' : c ∈ cs!"abcdef" := range_mem (a := 97) (b := 102) h.1 h.2 (by
        intro i h₁ h₂
        have : i = 97 ∨ i = 98 ∨ i = 99 ∨ i = 100 ∨ i = 101 ∨ i = 102 := by omega
        rcases this with rfl | rfl | rfl | rfl | rfl | rfl <;> decide)
      simp only [List.mem_cons, List.not_mem_nil, or_false] at h' ⊢
      grind
  · rintro (h | h)
    · exact .inl h
    · refine .inr ?_
      simp only [List.mem_cons, List.not_mem_nil, or_false] at h
      rcases h with h | h | h | h | h | h | h | h | h | h | h | h <;> subst h <;> decide

/-! ## Texts -/

theorem texts_number {s : Str} : Texts rxNumber s ↔ IsNumber s := by
  simp only [rxNumber, texts_plus_chars, digit_iff, IsNumber]

theorem texts_upTo_iff {p : Char → Bool} {n : Nat} {s : Str} :
    Texts (.upTo (.chars p) n) s ↔ s ≠ [] ∧ s.length ≤ n ∧ ∀ c ∈ s, p c = true := by
  induction n generalizing s with
  | zero =>
    simp only [Rx.upTo, texts_empty, false_iff]
    rintro ⟨h₁, h₂, _⟩
    exact h₁ (List.length_eq_zero_iff.1 (Nat.le_zero.1 h₂))
  | succ n ih =>
    cases n with
    | zero =>
      show Texts (.chars p) s ↔ _
      rw [texts_chars]
      constructor
      · rintro ⟨c, hc, rfl⟩; simp [hc]
      · rintro ⟨h₁, h₂, h₃⟩
        match s, h₁, h₂ with
        | [c], _, _ => exact ⟨c, h₃ c (by simp), rfl⟩
        | _ :: _ :: _, _, h₂ => simp at h₂
    | succ n =>
      simp only [Rx.upTo, texts_seq, texts_opt, texts_chars, ih]
      constructor
      · rintro ⟨_, v, rfl, ⟨c, hc, rfl⟩, h | rfl⟩
        · refine ⟨by simp, ?_, ?_⟩
          · have := h.2.1; simp; omega
          · simpa [hc] using h.2.2
        · simp [hc]
      · rintro ⟨h₁, h₂, h₃⟩
        cases s with
        | nil => exact absurd rfl h₁
        | cons c s =>
          refine ⟨[c], s, rfl, ⟨c, h₃ c (by simp), rfl⟩, ?_⟩
          by_cases hs : s = []
          · exact .inr hs
          · exact .inl ⟨hs, by simpa using h₂, fun d hd => h₃ d (by simp [hd])⟩

theorem texts_byte {s : Str} : Texts rxByte s ↔ IsByte s := by
  simp only [rxByte, texts_upTo_iff, IsByte, IsNumber, digit_iff]
  grind

theorem texts_group {s : Str} : Texts rxGroup s ↔ IsGroup s := by
  simp only [rxGroup, texts_opt, texts_upTo_iff, IsGroup, hex_iff]
  constructor
  · rintro (⟨_, h₁, h₂⟩ | rfl)
    · exact ⟨h₁, h₂⟩
    · simp
  · rintro ⟨h₁, h₂⟩
    by_cases h : s = []
    · exact .inr h
    · exact .inl ⟨h, h₁, h₂⟩

theorem keyword_mem (k : Keyword) : (k.spelling, k) ∈ keywordTable := by cases k <;> decide

theorem mem_keyword {w : Str} {k : Keyword} (h : (w, k) ∈ keywordTable) : w = k.spelling := by
  have : ∀ p ∈ keywordTable, p.1 = p.2.spelling := by decide
  exact this _ h

theorem punct_mem (p : Punct) : (p.spelling, p) ∈ punctTable := by cases p <;> decide

theorem mem_punct {w : Str} {p : Punct} (h : (w, p) ∈ punctTable) : w = p.spelling := by
  have : ∀ q ∈ punctTable, q.1 = q.2.spelling := by decide
  exact this _ h

/-- The kind of a rule. -/
def kindOf (j : Nat) : Nat := if j < 56 then 0 else if j < 64 then j - 55 else if j < 83 then 9 else j - 73

theorem kindOf_mono {i j : Nat} (h : i ≤ j) : kindOf i ≤ kindOf j := by
  unfold kindOf; grind

theorem written_of_texts {j : Nat} {r : LexRule} {t : Str} (hr : RuleAt j r) (ht : Texts r.rx t) :
    Written (kindOf j) r.eol (r.act t) t := by
  cases hr with
  | @kw j k h hj =>
    have e : kindOf j = 0 := by simp [kindOf, hj]
    obtain rfl := texts_lit.1 ht
    rw [e]
    exact .keyword (keyword_mem k)
  | version =>
    simp only [rxVersion, texts_seq, texts_char, texts_number, texts_opt] at ht
    obtain ⟨a, _, rfl, ha, _, _, rfl, rfl, b, v, rfl, hb, hv⟩ := ht
    rcases hv with ⟨_, c, rfl, rfl, hc⟩ | rfl
    · exact .version₃ ha hb hc
    · rw [List.append_nil]; exact .version₂ ha hb
  | number => exact .number (texts_number.1 ht)
  | string =>
    obtain ⟨c, v, rfl, hc, hv⟩ := texts_string.1 ht
    exact .word ⟨c, v, rfl, wordStart_iff.1 hc, fun d hd => word_iff.1 (hv d hd)⟩
  | numString =>
    obtain ⟨c, v, rfl, hc, hv⟩ := texts_numString.1 ht
    refine .numWord ?_ fun d hd => word_iff.1 (hv d hd)
    rw [Bool.or_eq_true, digit_iff, wordStart_iff] at hc
    grind
  | ipv4 =>
    simp only [rxIpv4, texts_seq, texts_char, texts_byte] at ht
    obtain ⟨a, _, rfl, ha, _, _, rfl, rfl, b, _, rfl, hb, _, _, rfl, rfl, c, _, rfl, hc, _, d, rfl, rfl, hd⟩ := ht
    exact .ipv4 ha hb hc hd
  | ipv6 =>
    simp only [rxIpv6, texts_seq, texts_char, texts_group, texts_star_chars, Bool.or_eq_true, beq_iff_eq,
      hex_iff] at ht
    obtain ⟨a, _, rfl, ha, _, _, rfl, rfl, m, _, rfl, hm, _, b, rfl, rfl, hb⟩ := ht
    exact .ipv6 ha hm hb
  | quoted =>
    simp only [rxQuoted, texts_seq, texts_char, texts_star_chars, quoted_iff] at ht
    obtain ⟨_, _, rfl, rfl, q, _, rfl, hq, rfl⟩ := ht
    exact .quoted hq
  | fileType =>
    simp only [rxFileType, texts_seq, texts_char, texts_chars, decide_eq_true_eq, Bool.or_eq_true,
      beq_iff_eq] at ht
    obtain ⟨_, _, rfl, rfl, _, _, rfl, ⟨c, hc, rfl⟩, b, hb, rfl⟩ := ht
    refine .fileType ?_ hb
    simp only [List.mem_cons, List.not_mem_nil, or_false] at hc ⊢
    grind
  | @punct j p h =>
    have hj : j < 19 := (List.getElem?_eq_some_iff.1 h).1
    have e : kindOf (j + 64) = 9 := by unfold kindOf; grind
    obtain rfl := texts_lit.1 ht
    rw [e]
    exact .punct (punct_mem p)
  | command =>
    obtain ⟨space, list, ids, rfl, hL, hl⟩ := texts_command.1 ht
    exact .command (by cases space <;> simp) hL hl
  | comment =>
    obtain ⟨line, rfl, hl⟩ := texts_comment.1 ht
    exact .comment hl
  | dnl =>
    simp only [rxDnl, texts_seq, texts_lit, texts_opt, texts_star_chars, lxAny_iff] at ht
    obtain ⟨_, v, rfl, rfl, hv⟩ := ht
    refine .dnl ?_
    rcases hv with hv | rfl
    · exact hv
    · simp
  | space =>
    simp only [rxSpace, texts_chars, Bool.or_eq_true, beq_iff_eq] at ht
    obtain ⟨c, hc, rfl⟩ := ht
    refine .blank ?_
    simp only [List.mem_cons, List.not_mem_nil, or_false]
    grind
  | unknown =>
    simp only [texts_chars, lxAny, bne_iff_ne] at ht
    obtain ⟨c, hc, rfl⟩ := ht
    exact .other hc

theorem texts_of_written {kind : Nat} {eol : Bool} {tok : Option Token} {t : Str} (h : Written kind eol tok t) :
    ∃ j r, RuleAt j r ∧ Texts r.rx t ∧ kindOf j = kind ∧ r.eol = eol ∧ r.act t = tok := by
  cases h with
  | @keyword w k h =>
    obtain rfl := mem_keyword h
    obtain ⟨j, hj⟩ := List.mem_iff_getElem?.1 (mem_allKeywords k)
    have hl : j < 56 := (List.getElem?_eq_some_iff.1 hj).1
    exact ⟨j, _, .kw hj hl, texts_lit.2 rfl, by simp [kindOf, hl], rfl, rfl⟩
  | @version₂ a b ha hb =>
    refine ⟨_, _, .version, ?_, rfl, rfl, rfl⟩
    simp only [rxVersion, texts_seq, texts_char, texts_number, texts_opt]
    exact ⟨a, _, rfl, ha, ['.'], b, rfl, rfl, b, [], by simp, hb, .inr rfl⟩
  | @version₃ a b c ha hb hc =>
    refine ⟨_, _, .version, ?_, rfl, rfl, rfl⟩
    simp only [rxVersion, texts_seq, texts_char, texts_number, texts_opt]
    exact ⟨a, _, rfl, ha, ['.'], _, rfl, rfl, b, '.' :: c, rfl, hb, .inl ⟨['.'], c, rfl, rfl, hc⟩⟩
  | number ha => exact ⟨_, _, .number, texts_number.2 ha, rfl, rfl, rfl⟩
  | word h =>
    obtain ⟨c, v, rfl, hc, hv⟩ := h
    exact ⟨_, _, .string, texts_string.2 ⟨c, v, rfl, wordStart_iff.2 hc, fun d hd => word_iff.2 (hv d hd)⟩,
      rfl, rfl, rfl⟩
  | @numWord c w hc hw =>
    refine ⟨_, _, .numString, texts_numString.2 ⟨c, w, rfl, ?_, fun d hd => word_iff.2 (hw d hd)⟩, rfl, rfl, rfl⟩
    rw [Bool.or_eq_true, digit_iff, wordStart_iff]
    grind
  | @ipv4 a b c d ha hb hc hd =>
    refine ⟨_, _, .ipv4, ?_, rfl, rfl, rfl⟩
    simp only [rxIpv4, texts_seq, texts_char, texts_byte]
    exact ⟨a, _, rfl, ha, ['.'], _, rfl, rfl, b, _, rfl, hb, ['.'], _, rfl, rfl, c, _, rfl, hc, ['.'], d, rfl, rfl, hd⟩
  | @ipv6 a m b ha hm hb =>
    refine ⟨_, _, .ipv6, ?_, rfl, rfl, rfl⟩
    simp only [rxIpv6, texts_seq, texts_char, texts_group, texts_star_chars, Bool.or_eq_true, beq_iff_eq, hex_iff]
    exact ⟨a, _, rfl, ha, [':'], _, rfl, rfl, m, _, rfl, hm, [':'], b, rfl, rfl, hb⟩
  | @quoted q hq =>
    refine ⟨_, _, .quoted, ?_, rfl, rfl, rfl⟩
    simp only [rxQuoted, texts_seq, texts_char, texts_star_chars, quoted_iff]
    exact ⟨['"'], _, rfl, rfl, q, _, rfl, hq, rfl⟩
  | @fileType c b hc hb =>
    refine ⟨_, _, .fileType, ?_, rfl, rfl, rfl⟩
    simp only [rxFileType, texts_seq, texts_char, texts_chars, decide_eq_true_eq, Bool.or_eq_true, beq_iff_eq]
    refine ⟨['-'], _, rfl, rfl, [c], _, rfl, ⟨c, ?_, rfl⟩, b, hb, rfl⟩
    simp only [List.mem_cons, List.not_mem_nil, or_false] at hc ⊢
    grind
  | @punct w p h =>
    obtain rfl := mem_punct h
    obtain ⟨j, hj⟩ := List.mem_iff_getElem?.1 (show p ∈ allPuncts by cases p <;> decide)
    have hl : j < 19 := (List.getElem?_eq_some_iff.1 hj).1
    exact ⟨j + 64, _, .punct hj, texts_lit.2 rfl, by unfold kindOf; grind, rfl, rfl⟩
  | @command space ids list hs hL hl =>
    refine ⟨_, _, .command, texts_command.2 ?_, rfl, rfl, rfl⟩
    rcases hs with rfl | rfl
    · exact ⟨false, list, ids, rfl, hL, hl⟩
    · exact ⟨true, list, ids, rfl, hL, hl⟩
  | @comment line h => exact ⟨_, _, .comment, texts_comment.2 ⟨line, rfl, h⟩, rfl, rfl, rfl⟩
  | @dnl line h =>
    refine ⟨_, _, .dnl, ?_, rfl, rfl, rfl⟩
    simp only [rxDnl, texts_seq, texts_lit, texts_opt, texts_star_chars, lxAny_iff]
    exact ⟨_, line, rfl, rfl, .inl h⟩
  | @blank c h =>
    refine ⟨_, _, .space, ?_, rfl, rfl, rfl⟩
    simp only [rxSpace, texts_chars, Bool.or_eq_true, beq_iff_eq]
    refine ⟨c, ?_, rfl⟩
    simp only [List.mem_cons, List.not_mem_nil, or_false] at h
    grind
  | @other c h =>
    exact ⟨_, _, .unknown, texts_chars.2 ⟨c, by simpa [lxAny] using h, rfl⟩, rfl, rfl, rfl⟩

/-- The token of a kind and a text. -/
def TokenAs (w : Str) : Nat → Bool → Option Token → Prop
  | 0, e, t => e = false ∧ ∃ k, (w, k) ∈ keywordTable ∧ t = some (.kw k)
  | 1, e, t => e = false ∧ t = some (.versionNo w)
  | 2, e, t => e = false ∧ t = some (.number w)
  | 3, e, t => e = false ∧ t = some (.string w)
  | 4, e, t => e = false ∧ t = some (.numString w)
  | 5, e, t => e = false ∧ t = some (.ipv4 w)
  | 6, e, t => e = false ∧ t = some (.ipv6 w)
  | 7, e, t => e = false ∧ t = some (.quoted w)
  | 8, e, t => e = false ∧ t = some .fileType
  | 9, e, t => e = false ∧ ∃ p, (w, p) ∈ punctTable ∧ t = some (.p p)
  | 10, e, t => e = true ∧ t = some (.command w)
  | 11, e, t => e = true ∧ t = some .comment
  | 12, e, t => e = true ∧ t = none
  | 13, e, t => e = false ∧ t = none
  | 14, e, t => e = false ∧ ∃ c, w = [c] ∧ t = some (.unknown c)
  | _, _, _ => False

theorem Spec.Written.tokenAs {kind : Nat} {e : Bool} {t : Option Token} {w : Str}
    (h : Written kind e t w) : TokenAs w kind e t := by
  cases h with
  | keyword h => exact ⟨rfl, _, h, rfl⟩
  | punct h => exact ⟨rfl, _, h, rfl⟩
  | other h => exact ⟨rfl, _, rfl, rfl⟩
  | _ => exact ⟨rfl, rfl⟩

/-- A kind and a text have one token. -/
theorem Spec.Written.unique {kind : Nat} {e e' : Bool} {t t' : Option Token} {w : Str}
    (h : Written kind e t w) (h' : Written kind e' t' w) : e = e' ∧ t = t' := by
  have inj : ∀ p ∈ keywordTable, ∀ q ∈ keywordTable, p.1 = q.1 → p = q := by decide +kernel
  have inj' : ∀ p ∈ punctTable, ∀ q ∈ punctTable, p.1 = q.1 → p = q := by decide +kernel
  replace h := h.tokenAs
  replace h' := h'.tokenAs
  unfold TokenAs at h h'
  split at h
  · obtain ⟨rfl, k, hk, rfl⟩ := h
    obtain ⟨rfl, k', hk', rfl⟩ := h'
    cases inj _ hk _ hk' rfl
    exact ⟨rfl, rfl⟩
  case h_10 =>
    obtain ⟨rfl, k, hk, rfl⟩ := h
    obtain ⟨rfl, k', hk', rfl⟩ := h'
    cases inj' _ hk _ hk' rfl
    exact ⟨rfl, rfl⟩
  case h_15 =>
    obtain ⟨rfl, c, rfl, rfl⟩ := h
    obtain ⟨rfl, _, e, rfl⟩ := h'
    cases e
    exact ⟨rfl, rfl⟩
  case h_16 => exact h.elim
  all_goals
    obtain ⟨rfl, rfl⟩ := h
    obtain ⟨rfl, rfl⟩ := h'
    exact ⟨rfl, rfl⟩

/-- Whether a text has to end its line depends on its kind. -/
theorem Spec.Written.eol {kind : Nat} {e e' : Bool} {t t' : Option Token} {w w' : Str}
    (h : Written kind e t w) (h' : Written kind e' t' w') : e = e' := by
  cases h <;> cases h' <;> rfl

end Selint
