import Verif.Lemmas.TokenTexts
import Verif.Props.Lex
/-!
# C91: what the scanner reads

The texts of every kind of token, and which of them is read at the beginning of a text, are
defined in `Spec/Tokens.lean` without reference to the rules of the scanner.
-/

namespace Selint
open Spec

theorem written_extent {r : LexRule} {t c : Str} (h : RuleMatches r t c) :
    t.length + c.length = extent r.eol t := by
  cases h with
  | plain he _ => simp [extent, he]
  | eol he _ => simp [extent, he]

theorem read_of_step {s text rest : Str} {t : Option Token} (h : lexStep s = .step t text rest) :
    s = text ++ rest ∧ Read t text rest := by
  obtain ⟨rfl, _, i, r, ht, rfl⟩ := lexStep_takes h
  obtain ⟨hr, c, hm, hc, hmax⟩ := ht
  have htt : Texts r.rx text := by cases hm <;> assumption
  refine ⟨rfl, _, _, written_of_texts (ruleAt hr) htt, ?_, ?_⟩
  · intro he
    cases hm with
    | plain he' _ => rw [he] at he'; cases he'
    | eol _ _ => obtain ⟨v, rfl⟩ := hc; rfl
  · intro kind' eol' t' text' rest' hw hl e
    obtain ⟨j, r', hr', htt', rfl, rfl, rfl⟩ := texts_of_written hw
    have hm' : ∃ c', RuleMatches r' text' c' ∧ c' <+: rest' := by
      cases he : r'.eol with
      | false => exact ⟨[], .plain he htt', List.nil_prefix⟩
      | true =>
        have := hl he
        cases rest' with
        | nil => cases this
        | cons d rest' => cases this; exact ⟨['\n'], .eol he htt', ⟨rest', rfl⟩⟩
    obtain ⟨c', hm', v, rfl⟩ := hm'
    have := hmax j r' text' c' (ruleAt_iff.2 hr') hm' (by rw [← e, ← List.append_assoc]; exact List.prefix_append _ _)
    rw [written_extent hm, written_extent hm'] at this
    exact ⟨this.1, fun e => kindOf_mono (this.2 e)⟩

/-- At most one token is read. -/
theorem Spec.Read.unique {t t' : Option Token} {text text' rest rest' : Str} (h : Read t text rest)
    (h' : Read t' text' rest') (e : text' ++ rest' = text ++ rest) : t = t' ∧ text = text' ∧ rest = rest' := by
  obtain ⟨k, o, hw, hl, hm⟩ := h
  obtain ⟨k', o', hw', hl', hm'⟩ := h'
  have h₁ := hm hw' hl' e
  have h₂ := hm' hw hl e.symm
  have he : extent o text = extent o' text' := Nat.le_antisymm h₂.1 h₁.1
  have hk : k = k' := Nat.le_antisymm (h₁.2 he.symm) (h₂.2 he)
  subst hk
  have ho := hw.eol hw'
  subst ho
  have hlen : text'.length = text.length := by unfold extent at he; omega
  obtain ⟨rfl, rfl⟩ := List.append_inj e hlen
  exact ⟨(hw.unique hw').2, rfl, rfl⟩

/-- **C91 (step).** At every place, the scanner reads exactly the token (or skips exactly the
text) that the description of the language determines. -/
theorem C91_step {s text rest : Str} {t : Option Token} :
    lexStep s = .step t text rest ↔ s = text ++ rest ∧ Read t text rest := by
  refine ⟨read_of_step, ?_⟩
  rintro ⟨rfl, h⟩
  have hne : text ++ rest ≠ [] := by
    obtain ⟨k, o, hw, _⟩ := h
    obtain ⟨j, r, hr, ht, _⟩ := texts_of_written hw
    intro e
    rw [List.append_eq_nil_iff] at e
    rw [e.1] at ht
    exact rx_nonempty hr ht
  obtain ⟨t', text', rest', hs⟩ := lexStep_total hne
  obtain ⟨e, h'⟩ := read_of_step hs
  obtain ⟨rfl, rfl, rfl⟩ := h.unique h' e.symm
  exact hs

theorem Spec.Scans.tokens {n : Nat} {s : Str} {ts : List (Nat × Token)} (h : Scans lexRules n s ts) :
    Tokens n s ts := by
  induction h with
  | nil => exact .nil
  | skip h hne ha _ ih =>
    have := lexStep_of_takes h
    rw [ha] at this
    exact .skip (C91_step.1 this).2 ih
  | token h hne ha _ ih =>
    have hn := List.count_eq_zero.2 (token_nonl h ha)
    rw [hn, Nat.add_zero] at ih ⊢
    have := lexStep_of_takes h
    rw [ha] at this
    exact .token (C91_step.1 this).2 ih

theorem Spec.Tokens.unique {n : Nat} {s : Str} {ts ts' : List (Nat × Token)} (h : Tokens n s ts)
    {s' : Str} (h' : Tokens n s' ts') (e : s' = s) : ts = ts' := by
  have ne : ∀ {t : Option Token} {text rest : Str}, Read t text rest → text ++ rest ≠ [] := by
    intro t text rest h e
    have := C91_step.2 ⟨rfl, h⟩
    rw [e] at this
    exact absurd (lexStep_takes this).2.1 (by simp [(List.append_eq_nil_iff.1 e).1])
  induction h generalizing s' ts' with
  | nil =>
    cases h' with
    | nil => rfl
    | skip h _ => exact absurd e (ne h)
    | token h _ => exact absurd e (ne h)
  | skip h _ ih =>
    cases h' with
    | nil => exact absurd e.symm (ne h)
    | skip h' hr' => obtain ⟨_, rfl, rfl⟩ := h.unique h' e; exact ih hr' rfl
    | token h' _ => cases (h.unique h' e).1
  | token h _ ih =>
    cases h' with
    | nil => exact absurd e.symm (ne h)
    | skip h' hr' => cases (h.unique h' e).1
    | token h' hr' =>
      obtain ⟨e₁, rfl, rfl⟩ := h.unique h' e
      cases e₁
      rw [ih hr' rfl]

/-- **C91 (files).** The scanner turns a text into exactly the tokens it has in the language,
each with the line on which it stands. -/
theorem C91_file {s : Str} {ts : List (Nat × Token)} : lexFile s = some ts ↔ Tokens 1 s ts := by
  obtain ⟨ts', h₁, h₂, _⟩ := C48_total s
  constructor
  · intro h
    rw [h] at h₁; cases h₁
    exact h₂.tokens
  · intro h
    rw [h₁, h₂.tokens.unique h rfl]

/-- Non-vacuity: a file with tokens of every kind. -/
example : Tokens 1 lexExample
    [(1, .kw .policyModule), (1, .p .openParen), (1, .string cs!"foo"), (1, .p .comma),
      (1, .versionNo cs!"1.0"), (1, .p .closeParen), (3, .kw .type), (3, .string cs!"foo_t"),
      (3, .p .semicolon), (3, .command cs!"#selint-disable: W-001,C-002"), (4, .kw .allow),
      (4, .string cs!"typex"), (4, .numString cs!"1a"), (4, .p .colon), (4, .string cs!"file"),
      (4, .p .openCurly), (4, .number cs!"7"), (4, .fileType), (4, .p .closeCurly),
      (4, .p .semicolon), (4, .comment), (6, .ipv4 cs!"1.2.3.4"), (6, .ipv6 cs!"::1"),
      (6, .quoted cs!"\"a.b\""), (6, .unknown '@')] := C91_file.1 (by decide +kernel)

/-- Borderline cases: numbers of many digits between dots, four digits in an address, an empty
string in quotes, a carriage return, `-p` before a tab, and a command before the end of the file. -/
example : lexFile cs!"1234.5.6.7 1.2.3.456 G:: ABCDE::F \"\" \"~\"\r-p\t#selint-disable:C-001" = some
    [(1, .versionNo cs!"1234.5.6"), (1, .p .period), (1, .number cs!"7"), (1, .ipv4 cs!"1.2.3.456"),
      (1, .string cs!"G"), (1, .ipv6 cs!"::"), (1, .string cs!"ABCDE"), (1, .ipv6 cs!"::F"),
      (1, .quoted cs!"\"\""), (1, .quoted cs!"\"~\""), (1, .fileType), (1, .unknown '#'),
      (1, .string cs!"selint-disable"), (1, .p .colon), (1, .string cs!"C-001")] := by decide +kernel

end Selint
