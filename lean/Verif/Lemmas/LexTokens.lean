import Verif.Lemmas.LexRules
/-! # Which token the scanner finds -/

namespace Selint
open Spec

theorem texts_upTo {p : Char → Bool} {n : Nat} {s : Str} (h : Texts (.upTo (.chars p) n) s) :
    ∀ c ∈ s, p c = true := by
  induction n generalizing s with
  | zero => exact absurd h texts_empty
  | succ n ih =>
    cases n with
    | zero =>
      obtain ⟨c, hc, rfl⟩ := texts_chars.1 h
      simpa using hc
    | succ n =>
      simp only [Rx.upTo] at h
      obtain ⟨u, v, rfl, hu, hv⟩ := texts_seq.1 h
      obtain ⟨c, hc, rfl⟩ := texts_chars.1 hu
      rcases texts_opt.1 hv with hv | rfl
      · simpa [hc] using ih hv
      · simpa using hc

theorem texts_ipv6 {s : Str} (h : Texts rxIpv6 s) : ∃ g u, s = g ++ ':' :: u ∧ ∀ c ∈ g, lxHex c = true := by
  obtain ⟨g, v, rfl, hg, hv⟩ := texts_seq.1 h
  obtain ⟨x, u, rfl, hx, _⟩ := texts_seq.1 hv
  obtain rfl := texts_char.1 hx
  refine ⟨g, u, rfl, ?_⟩
  rcases texts_opt.1 hg with hg | rfl
  · exact texts_upTo hg
  · simp

theorem texts_dnl {s : Str} (h : Texts rxDnl s) : cs!"dnl" <+: s := by
  obtain ⟨g, v, rfl, hg, _⟩ := texts_seq.1 h
  obtain rfl := texts_lit.1 hg
  exact ⟨v, rfl⟩

/-- A text up to the first character of another kind. -/
theorem prefix_stop {p : Char → Bool} {g w rest u : Str} {x : Char} (hg : ∀ c ∈ g, p c = true)
    (hw : ∀ c ∈ w, p c = true) (hx : p x = false) (hp : g ++ x :: u <+: w ++ rest)
    (hr : ∀ c, rest.head? = some c → p c = false) : g = w ∧ rest.head? = some x := by
  induction g generalizing w with
  | nil =>
    cases w with
    | nil =>
      obtain ⟨v, rfl⟩ := hp
      exact ⟨rfl, rfl⟩
    | cons d w =>
      obtain ⟨rfl, _⟩ := List.cons_prefix_cons.1 hp
      rw [hw x (by simp)] at hx; cases hx
  | cons c g ih =>
    cases w with
    | nil =>
      obtain ⟨v, e⟩ := hp
      have := hr c (by rw [← List.nil_append rest, ← e]; rfl)
      rw [hg c (by simp)] at this; cases this
    | cons d w =>
      obtain ⟨rfl, hp'⟩ := List.cons_prefix_cons.1 hp
      obtain ⟨rfl, h⟩ := ih (fun e he => hg e (by simp [he])) (fun e he => hw e (by simp [he])) hp'
      exact ⟨rfl, h⟩

theorem punct_not_start {p : Punct} {d : Char} (hd : lxWordStart d = true) :
    (punctRule p).rx.starts d = false := by
  cases h : (punctRule p).rx.starts d
  · rfl
  · exfalso
    cases p <;> simp [punctRule, Punct.spelling, Rx.lit, Rx.starts, Rx.char, Rx.nullable] at h <;>
      subst h <;> revert hd <;> decide

/-- Which rule is taken for a word. -/
theorem takes_word {i : Nat} {r : LexRule} {w rest : Str} (hr : RuleAt i r) (hm : RuleMatches r w [])
    (hw : ∃ c v, w = c :: v ∧ lxWordStart c = true ∧ ∀ d ∈ v, lxWord d = true)
    (hend : ∀ c, rest.head? = some c → lxWord c = false)
    (h6 : (∀ c ∈ w, lxHex c = true) → rest.head? ≠ some ':') (hdnl : ¬ cs!"dnl" <+: w)
    (hkw : ∀ (j : Nat) (k : Keyword), allKeywords[j]? = some k → k.spelling = w → i ≤ j) (hi : i ≤ 58) :
    Takes lexRules i r w rest := by
  have hall : ∀ c ∈ w, lxWord c = true := by
    obtain ⟨c, v, rfl, hc, hv⟩ := hw
    simpa [wordStart_word hc] using hv
  refine takes_intro hr hm List.nil_prefix fun j r' t' c' hr' ht' hm' hp => ?_
  have hlen : ∀ {t : Str}, (∀ c ∈ t, lxWord c = true) → t <+: w ++ rest → t <+: w := fun h hp => word_end h hp hend
  have hctx := hm'.context
  have hp₀ : t' <+: w ++ rest := (List.prefix_append _ _).trans hp
  obtain ⟨d, v, hdv, hd, hv⟩ := id hw
  have hst : r'.rx.starts d = false → False := fun hs => by
    rw [hdv] at hp
    exact no_start hr' ht' (List.cons_append ▸ hp) hs
  have hne : ∀ x, lxWordStart x = false → (d == x) = false := fun x hx => by
    cases h : d == x
    · rfl
    · rw [beq_iff_eq] at h; subst h; rw [hd] at hx; cases hx
  cases hr' with
  | @kw j k h hj =>
    obtain rfl := texts_lit.1 ht'
    subst hctx
    have hsp : ∀ c ∈ k.spelling, lxWord c = true := by
      obtain ⟨c, v, e, hc, hv⟩ := spelling_word k
      rw [e]; simpa [wordStart_word hc] using hv
    have := hlen hsp hp₀
    refine ⟨by simpa [kwRule] using this.length_le, fun e => ?_⟩
    exact hkw j k h (this.eq_of_length (by simpa [kwRule] using e))
  | version => exact absurd (digit_not_start hd) (fun h => hst (by simp [rxVersion, rxNumber, Rx.plus, Rx.starts, Rx.nullable, h]))
  | number => exact absurd (digit_not_start hd) (fun h => hst (by simp [rxNumber, Rx.plus, Rx.starts, Rx.nullable, h]))
  | string =>
    obtain ⟨c, v, rfl, hc, hv⟩ := texts_string.1 ht'
    have := hlen (t := c :: v) (by simpa [wordStart_word hc] using hv) hp₀
    subst hctx
    exact ⟨by simpa using this.length_le, fun _ => hi⟩
  | numString =>
    obtain ⟨c, v, rfl, hc, hv⟩ := texts_numString.1 ht'
    have hc' : lxWord c = true := by
      rcases Bool.or_eq_true_iff.1 hc with hc | hc
      · exact digit_word hc
      · exact wordStart_word hc
    have := hlen (t := c :: v) (by simpa [hc'] using hv) hp₀
    subst hctx
    exact ⟨by simpa using this.length_le, fun _ => by omega⟩
  | ipv4 =>
    exact absurd (digit_not_start hd) (fun h => hst (by
      simp [rxIpv4, rxByte, Rx.upTo, Rx.starts, Rx.nullable, h]))
  | ipv6 =>
    obtain ⟨g, u, rfl, hg⟩ := texts_ipv6 ht'
    obtain ⟨rfl, h⟩ := prefix_stop (fun c hc => hex_word (hg c hc)) hall (by decide) hp₀ hend
    exact absurd h (h6 hg)
  | quoted => exact (hst (by simp [rxQuoted, Rx.starts, Rx.char, Rx.nullable, hne '"' (by decide)])).elim
  | fileType => exact (hst (by simp [rxFileType, Rx.starts, Rx.char, Rx.nullable, hne '-' (by decide)])).elim
  | punct h => exact (hst (punct_not_start hd)).elim
  | command =>
    exact (hst (by simp [rxCommand, Rx.lit, Rx.starts, Rx.char, Rx.nullable, hne '#' (by decide)])).elim
  | comment => exact (hst (by simp [rxComment, Rx.starts, Rx.char, Rx.nullable, hne '#' (by decide)])).elim
  | dnl => exact absurd (hlen (by decide) ((texts_dnl ht').trans hp₀)) hdnl
  | space =>
    exact (hst (by simp [rxSpace, Rx.starts, hne ' ' (by decide), hne '\t' (by decide),
      hne '\n' (by decide), hne '\r' (by decide)])).elim
  | unknown =>
    obtain ⟨c, _, rfl⟩ := texts_chars.1 ht'
    subst hctx
    rw [hdv]
    exact ⟨by simp, fun _ => by omega⟩

theorem keyword_not_hex (k : Keyword) : ¬ ∀ c ∈ k.spelling, lxHex c = true := by
  cases k <;> decide

theorem keyword_not_dnl (k : Keyword) : ¬ cs!"dnl" <+: k.spelling := by
  cases k <;> decide

theorem takes_keyword (k : Keyword) {rest : Str} (hend : ∀ c, rest.head? = some c → lxWord c = false) :
    ∃ i, Takes lexRules i (kwRule k) k.spelling rest := by
  obtain ⟨i, hi⟩ := List.getElem?_of_mem (mem_allKeywords k)
  have hlt : i < 56 := (List.getElem?_eq_some_iff.1 hi).1
  refine ⟨i, takes_word (.kw hi hlt) (.plain rfl (texts_lit.2 rfl)) (spelling_word k) hend
    (fun h => absurd h (keyword_not_hex k)) (keyword_not_dnl k) (fun j k' hj e => ?_) (by omega)⟩
  have hj' : j < 56 := (List.getElem?_eq_some_iff.1 hj).1
  have h₁ : (allKeywords.map Keyword.spelling)[i]? = some k.spelling := by simp [hi]
  have h₂ : (allKeywords.map Keyword.spelling)[j]? = some k.spelling := by simp [hj, e]
  have := (List.getElem?_inj (by simpa [allKeywords] using hlt) spelling_nodup).1 (h₁.trans h₂.symm)
  omega

/-! ## Comments and commands -/

theorem lxDigit_iff {c : Char} : lxDigit c = true ↔ c ∈ cs!"0123456789" := by
  constructor
  · intro h
    simp only [lxDigit, decide_eq_true_eq, Char.le_def, UInt32.le_iff_toNat_le] at h
    have e1 : '0'.val.toNat = 48 := rfl
    have e2 : '9'.val.toNat = 57 := rfl
    have : c.val.toNat = 48 ∨ c.val.toNat = 49 ∨ c.val.toNat = 50 ∨ c.val.toNat = 51 ∨ c.val.toNat = 52 ∨
        c.val.toNat = 53 ∨ c.val.toNat = 54 ∨ c.val.toNat = 55 ∨ c.val.toNat = 56 ∨ c.val.toNat = 57 := by omega
    have inj : ∀ {d : Char}, c.val.toNat = d.val.toNat → c = d := fun h =>
      Char.ext (UInt32.toNat_inj.1 h)
    rcases this with h | h | h | h | h | h | h | h | h | h
    · rw [inj (d := '0') h]; decide
    · rw [inj (d := '1') h]; decide
    · rw [inj (d := '2') h]; decide
    · rw [inj (d := '3') h]; decide
    · rw [inj (d := '4') h]; decide
    · rw [inj (d := '5') h]; decide
    · rw [inj (d := '6') h]; decide
    · rw [inj (d := '7') h]; decide
    · rw [inj (d := '8') h]; decide
    · rw [inj (d := '9') h]; decide
  · intro h
    simp only [List.mem_cons, List.not_mem_nil, or_false] at h
    rcases h with h | h | h | h | h | h | h | h | h | h <;> subst h <;> decide

theorem texts_id {s : Str} : Texts rxId s ↔ IsId s := by
  unfold rxId
  simp only [texts_seq, texts_chars, texts_char, rxNumber, texts_plus_chars, lxDigit_iff, decide_eq_true_eq]
  constructor
  · rintro ⟨_, _, rfl, ⟨c, hc, rfl⟩, _, v, rfl, rfl, hne, hv⟩
    exact ⟨c, v, rfl, hc, hne, hv⟩
  · rintro ⟨c, v, rfl, hc, hne, hv⟩
    exact ⟨[c], '-' :: v, rfl, ⟨c, hc, rfl⟩, ['-'], v, rfl, rfl, hne, hv⟩

/-- The rest of a list: `(\,\ ?id)*`. -/
theorem listing_star {r : Rx} {t : Str} (h : Texts r t)
    (hr : r = .star (.seq (.char ',') (.seq (.opt (.char ' ')) rxId))) {i : Str} (hi : IsId i) :
    ∃ ids, Listing ids (i ++ t) ∧ ∀ j ∈ ids, IsId j := by
  induction h generalizing i with
  | done => exact ⟨[i], by simpa using Listing.one i, by simpa using hi⟩
  | more h₁ _ _ ih₂ =>
    cases hr
    simp only [texts_seq, texts_char, texts_opt, texts_id] at h₁
    obtain ⟨_, _, rfl, rfl, sp, j, rfl, hsp, hj⟩ := h₁
    obtain ⟨ids, h₁, h₂⟩ := ih₂ rfl hj
    refine ⟨i :: ids, ?_, by simpa [hi] using h₂⟩
    rcases hsp with rfl | rfl
    · have := Listing.cons i cs!", " (.inr rfl) h₁
      simpa using this
    · have := Listing.cons i cs!"," (.inl rfl) h₁
      simpa using this
  | _ => cases hr

theorem star_listing {ids : List Str} {text : Str} (h : Listing ids text) (hids : ∀ j ∈ ids, IsId j) :
    ∃ i t, text = i ++ t ∧ IsId i ∧
      Texts (.star (.seq (.char ',') (.seq (.opt (.char ' ')) rxId))) t := by
  induction h with
  | one id => exact ⟨id, [], by simp, hids id (by simp), .done⟩
  | cons id sep hsep _ ih =>
    obtain ⟨i, t, rfl, hi, ht⟩ := ih fun j hj => hids j (by simp [hj])
    refine ⟨id, sep ++ i ++ t, by simp, hids id (by simp), .more ?_ ht⟩
    simp only [texts_seq, texts_char, texts_opt, texts_id]
    rcases hsep with rfl | rfl
    · exact ⟨[','], i, rfl, rfl, [], i, rfl, .inr rfl, hi⟩
    · exact ⟨[','], ' ' :: i, rfl, rfl, [' '], i, rfl, .inl rfl, hi⟩

/-- The documented form of a command: the ids after an optional space. -/
theorem texts_command {s : Str} : Texts rxCommand s ↔ ∃ (space : Bool) (ids : List Str) (text : Str),
    s = cs!"#selint-disable:" ++ ((if space then [' '] else []) ++ text) ∧ Listing ids text ∧
      ∀ j ∈ ids, IsId j := by
  unfold rxCommand
  constructor
  · intro h
    simp only [texts_seq, texts_lit, texts_opt, texts_char, texts_id] at h
    obtain ⟨_, _, rfl, rfl, sp, _, rfl, hsp, i, t, rfl, hi, ht⟩ := h
    obtain ⟨ids, h₁, h₂⟩ := listing_star ht rfl hi
    rcases hsp with rfl | rfl
    · exact ⟨true, ids, i ++ t, rfl, h₁, h₂⟩
    · exact ⟨false, ids, i ++ t, rfl, h₁, h₂⟩
  · rintro ⟨space, ids, text, rfl, h, hids⟩
    obtain ⟨i, t, rfl, hi, ht⟩ := star_listing h hids
    simp only [texts_seq, texts_lit, texts_opt, texts_char, texts_id]
    refine ⟨_, _, rfl, rfl, _, _, rfl, ?_, i, t, rfl, hi, ht⟩
    cases space <;> simp

theorem lxAny_iff {s : Str} : (∀ c ∈ s, lxAny c = true) ↔ '\n' ∉ s := by
  simp only [lxAny, bne_iff_ne]
  exact ⟨fun h hm => h _ hm rfl, fun h c hc e => h (e ▸ hc)⟩

theorem texts_comment {s : Str} : Texts rxComment s ↔ ∃ line, s = '#' :: line ∧ '\n' ∉ line := by
  simp only [rxComment, texts_seq, texts_char, texts_star_chars, lxAny_iff]
  constructor
  · rintro ⟨_, v, rfl, rfl, hv⟩; exact ⟨v, rfl, hv⟩
  · rintro ⟨v, rfl, hv⟩; exact ⟨['#'], v, rfl, rfl, hv⟩

theorem command_comment {s : Str} (h : Texts rxCommand s) : ∃ line, s = '#' :: line ∧ '\n' ∉ line := by
  have hn := avoids_texts (c := '\n') h (by decide)
  obtain ⟨_, _, _, rfl, _⟩ := texts_command.1 h
  exact ⟨_, rfl, fun hm => hn (List.mem_cons_of_mem _ hm)⟩

/-- Only three rules concern texts beginning with `#`. -/
theorem hash_rules {j : Nat} {r : LexRule} {t c rest : Str} (hr : RuleAt j r) (ht : Texts r.rx t)
    (hp : t ++ c <+: '#' :: rest) : j = 83 ∨ j = 84 ∨ (j = 87 ∧ t = ['#']) := by
  have := fun hs => no_start hr ht hp hs
  cases hr with
  | command => exact .inl rfl
  | comment => exact .inr (.inl rfl)
  | unknown =>
    obtain ⟨c, _, rfl⟩ := texts_chars.1 ht
    obtain ⟨rfl, _⟩ := List.cons_prefix_cons.1 (List.cons_append ▸ hp)
    exact .inr (.inr ⟨rfl, rfl⟩)
  | @kw j k h hj => exact (this (by cases k <;> decide)).elim
  | @punct j p h => exact (this (by cases p <;> decide)).elim
  | _ => exact (this (by decide)).elim

/-- What the rules for `#` match in front of a line. -/
theorem hash_match {j : Nat} {r : LexRule} {t c line rest : Str} (hr : RuleAt j r) (ht : Texts r.rx t)
    (hm : RuleMatches r t c) (hl : '\n' ∉ line) (hp : t ++ c <+: ('#' :: line) ++ rest)
    (hrest : rest = [] ∨ rest.head? = some '\n') :
    (j = 83 ∧ t = '#' :: line ∧ c = ['\n'] ∧ Texts rxCommand t ∧ rest ≠ []) ∨
      (j = 84 ∧ t = '#' :: line ∧ c = ['\n'] ∧ rest ≠ []) ∨
      (j = 87 ∧ t = ['#'] ∧ c = []) := by
  have hctx := hm.context
  have hend : ∀ c, rest.head? = some c → lxAny c = false := by
    intro c hc
    rcases hrest with rfl | h
    · cases hc
    · rw [h] at hc; cases hc; decide
  have hall : ∀ c ∈ '#' :: line, lxAny c = true := lxAny_iff.2 (by simp [hl])
  have key : ∀ line' : Str, t = '#' :: line' → '\n' ∉ line' → c = ['\n'] → t = '#' :: line ∧ rest ≠ [] := by
    rintro line' rfl hl' rfl
    have h := prefix_stop (p := lxAny) (g := '#' :: line') (w := '#' :: line) (u := [])
      (lxAny_iff.2 (by simp [hl'])) hall (by decide) hp hend
    refine ⟨h.1, ?_⟩
    rintro rfl
    cases h.2
  rcases hash_rules hr ht hp with rfl | rfl | ⟨rfl, rfl⟩
  · cases hr with
    | command =>
      obtain ⟨line', e, hl'⟩ := command_comment ht
      obtain ⟨h₁, h₂⟩ := key line' e hl' hctx
      exact .inl ⟨rfl, h₁, hctx, ht, h₂⟩
    | kw h hj => omega
    | punct h => have := (List.getElem?_eq_some_iff.1 h).1; simp [allPuncts] at this
  · cases hr with
    | comment =>
      obtain ⟨line', e, hl'⟩ := texts_comment.1 ht
      obtain ⟨h₁, h₂⟩ := key line' e hl' hctx
      exact .inr (.inl ⟨rfl, h₁, hctx, h₂⟩)
    | kw h hj => omega
    | punct h => have := (List.getElem?_eq_some_iff.1 h).1; simp [allPuncts] at this
  · cases hr with
    | unknown => exact .inr (.inr ⟨rfl, rfl, hctx⟩)
    | kw h hj => omega
    | punct h => have := (List.getElem?_eq_some_iff.1 h).1; simp [allPuncts] at this

theorem takes_command {line rest : Str} (hl : '\n' ∉ line) (h : Texts rxCommand ('#' :: line)) :
    Takes lexRules 83 ⟨rxCommand, true, fun t => some (.command t)⟩ ('#' :: line) ('\n' :: rest) := by
  refine takes_intro .command (.eol rfl h) ⟨rest, rfl⟩ fun j r' t' c' hr' ht' hm' hp => ?_
  rcases hash_match hr' ht' hm' hl hp (.inr rfl) with ⟨rfl, rfl, rfl, _⟩ | ⟨rfl, rfl, rfl, _⟩ | ⟨rfl, rfl, rfl⟩
  · simp
  · simp
  · simp

theorem takes_comment {line rest : Str} (hl : '\n' ∉ line) (h : ¬ Texts rxCommand ('#' :: line)) :
    Takes lexRules 84 ⟨rxComment, true, fun _ => some .comment⟩ ('#' :: line) ('\n' :: rest) := by
  refine takes_intro .comment (.eol rfl (texts_comment.2 ⟨line, rfl, hl⟩)) ⟨rest, rfl⟩
    fun j r' t' c' hr' ht' hm' hp => ?_
  rcases hash_match hr' ht' hm' hl hp (.inr rfl) with ⟨rfl, rfl, rfl, h', _⟩ | ⟨rfl, rfl, rfl, _⟩ | ⟨rfl, rfl, rfl⟩
  · exact absurd h' h
  · simp
  · simp

theorem takes_hash {line : Str} (hl : '\n' ∉ line) :
    Takes lexRules 87 ⟨.chars lxAny, false, unknownToken⟩ ['#'] line := by
  refine takes_intro .unknown (.plain rfl (texts_chars.2 ⟨'#', by decide, rfl⟩)) List.nil_prefix
    fun j r' t' c' hr' ht' hm' hp => ?_
  rcases hash_match (rest := []) hr' ht' hm' hl (by simpa using hp) (.inl rfl) with
    ⟨_, _, _, _, h⟩ | ⟨_, _, _, h⟩ | ⟨rfl, rfl, rfl⟩
  · exact absurd rfl h
  · exact absurd rfl h
  · simp

/-! ## What tokens look like -/

theorem token_nonl {i : Nat} {r : LexRule} {text rest : Str} (h : Takes lexRules i r text rest)
    {t : Token} (ht : r.act text = some t) : '\n' ∉ text := by
  obtain ⟨hr, c, hm, _⟩ := h
  have htt : Texts r.rx text := by cases hm <;> assumption
  have hr' := ruleAt hr
  refine avoids_texts htt ?_
  cases hr' with
  | @kw j k h hj => cases k <;> decide
  | @punct j p h => cases p <;> decide
  | space => cases ht
  | dnl => cases ht
  | _ => decide

theorem token_ok {i : Nat} {r : LexRule} {text rest : Str} (h : Takes lexRules i r text rest)
    {t : Token} (ht : r.act text = some t) : t.CommandOk ∧ t.NameOk := by
  obtain ⟨hr, c, hm, _⟩ := h
  have htt : Texts r.rx text := by cases hm <;> assumption
  have hr' := ruleAt hr
  have hu : r.rx.starts '_' = false → text.head? ≠ some '_' := by
    intro hs hh
    cases text with
    | nil => cases hh
    | cons d s =>
      simp only [List.head?_cons, Option.some.injEq] at hh
      subst hh
      rw [starts_texts htt rfl] at hs; cases hs
  cases hr' with
  | @kw j k h hj => cases ht; exact ⟨trivial, trivial⟩
  | @punct j p h => cases ht; exact ⟨trivial, trivial⟩
  | space => cases ht
  | dnl => cases ht
  | unknown =>
    cases text with
    | nil => cases ht
    | cons d s => cases ht; exact ⟨trivial, trivial⟩
  | command =>
    cases ht
    obtain ⟨_, _, _, rfl, _⟩ := texts_command.1 htt
    exact ⟨List.prefix_append _ _, trivial⟩
  | number => cases ht; exact ⟨trivial, hu (by decide)⟩
  | string => cases ht; exact ⟨trivial, hu (by decide)⟩
  | numString => cases ht; exact ⟨trivial, hu (by decide)⟩
  | quoted => cases ht; exact ⟨trivial, hu (by decide)⟩
  | _ => cases ht; exact ⟨trivial, trivial⟩

end Selint
