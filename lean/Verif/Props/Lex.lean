import Verif.Lemmas.Disablings
import Verif.Lemmas.LexTokens
import Verif.Props.Parse
import Verif.Props.Run
/-!
# C48, C49: the scanner

What a text of a regular expression is and which rule is taken is defined in `Spec/Lex.lean`,
the documented form of a `selint-disable` comment in `Spec/Exceptions.lean`.
-/

namespace Selint
open Spec

/-! ## C48: progress and totality -/

/-- **C48 (progress).** At every position that is not the end of the text, some rule matches,
and the scanner consumes at least one character; it takes the longest match, and the first of
the rules that have it. -/
theorem C48_progress {s : Str} (hs : s ≠ []) :
    ∃ t text rest, lexStep s = .step t text rest ∧ s = text ++ rest ∧ text ≠ [] ∧
      ∃ i r, Takes lexRules i r text rest ∧ t = r.act text := by
  obtain ⟨t, text, rest, h⟩ := lexStep_total hs
  exact ⟨t, text, rest, h, lexStep_takes h⟩

/-- **C48 (total).** Every text is scanned to its end, and the tokens and their lines are those
the rules determine. -/
theorem C48_total (s : Str) :
    ∃ ts, lexFile s = some ts ∧ Scans lexRules 1 s ts ∧ ∀ ts', Scans lexRules 1 s ts' → ts' = ts := by
  obtain ⟨ts, h₁, h₂⟩ := lexFrom_scans (line := 1) (Nat.le_refl s.length)
  exact ⟨ts, h₁, h₂, fun ts' h => h.unique h₂ rfl⟩

/-- Every token of a scanned text, with its place. -/
theorem Spec.Scans.place {n : Nat} {s : Str} {ts : List (Nat × Token)} (h : Scans lexRules n s ts)
    {l : Nat} {t : Token} (hm : (l, t) ∈ ts) :
    ∃ before text after, s = before ++ (text ++ after) ∧ l = n + before.count '\n' ∧ '\n' ∉ text ∧
      lexStep (text ++ after) = .step (some t) text after := by
  induction h with
  | nil => cases hm
  | @skip n i r text rest ts h hne ha hr ih =>
    obtain ⟨b, x, a, rfl, rfl, hx, hs⟩ := ih hm
    exact ⟨text ++ b, x, a, by simp, by simp; omega, hx, hs⟩
  | @token n i r text rest t' ts h hne ha hr ih =>
    have hnl := token_nonl h ha
    rcases List.mem_cons.1 hm with e | hm
    · cases e
      refine ⟨[], text, rest, rfl, by simp [List.count_eq_zero.2 hnl], hnl, ?_⟩
      rw [lexStep_of_takes h, ha]
    · obtain ⟨b, x, a, rfl, rfl, hx, hs⟩ := ih hm
      exact ⟨text ++ b, x, a, by simp, by simp; omega, hx, hs⟩

/-- **C48 (lines).** Every token stands where the text up to it contains as many newlines as
its line number says (counted from 1), and does not go over the end of a line. -/
theorem C48_line {s : Str} {ts : List (Nat × Token)} (h : lexFile s = some ts) {l : Nat} {t : Token}
    (hm : (l, t) ∈ ts) :
    ∃ before text after, s = before ++ (text ++ after) ∧ l = 1 + before.count '\n' ∧ '\n' ∉ text ∧
      lexStep (text ++ after) = .step (some t) text after := by
  obtain ⟨ts', h₁, h₂, _⟩ := C48_total s
  rw [h] at h₁; cases h₁
  exact h₂.place hm

/-! ## C48: words -/

theorem lxWord_iff {c : Char} : lxWord c = true ↔ WordChar c := by
  unfold lxWord lxAlpha lxDigit WordChar Char.isAlpha Char.isDigit Char.isUpper Char.isLower
  simp only [Bool.or_eq_true, decide_eq_true_eq, beq_iff_eq, Char.le_def, List.mem_cons,
    List.not_mem_nil, or_false, Bool.and_eq_true]
  grind

theorem lxWordStart_iff {c : Char} : lxWordStart c = true ↔ (c.isAlpha = true ∨ c ∈ cs!"$/") := by
  unfold lxWordStart lxAlpha Char.isAlpha Char.isUpper Char.isLower
  simp only [Bool.or_eq_true, decide_eq_true_eq, beq_iff_eq, Char.le_def, List.mem_cons,
    List.not_mem_nil, or_false, Bool.and_eq_true]
  grind

theorem wordEnds_iff {rest : Str} : WordEnds rest ↔ ∀ c, rest.head? = some c → lxWord c = false := by
  unfold WordEnds
  refine forall_congr' fun c => imp_congr_right fun _ => ?_
  rw [← lxWord_iff, Bool.not_eq_true]

theorem isWord_iff {w : Str} :
    IsNameWord w ↔ ∃ c v, w = c :: v ∧ lxWordStart c = true ∧ ∀ d ∈ v, lxWord d = true := by
  unfold IsNameWord
  simp only [lxWordStart_iff, lxWord_iff]

/-- **C48 (keywords).** The scanner finds a reserved word exactly where this word stands and no
character follows that could continue it. -/
theorem C48_keyword (k : Keyword) (s rest text : Str) :
    lexStep s = .step (some (.kw k)) text rest ↔ s = k.spelling ++ rest ∧ text = k.spelling ∧ WordEnds rest := by
  constructor
  · intro h
    obtain ⟨rfl, hne, i, r, ht, ha⟩ := lexStep_takes h
    obtain ⟨hr, c, hm, hc, hmax⟩ := ht
    have htt : Texts r.rx text := by cases hm <;> assumption
    have hr' := ruleAt hr
    have hk : r = kwRule k := by
      cases hr' with
      | kw h hj => cases ha; rfl
      | unknown => cases text <;> cases ha
      | _ => cases ha
    subst hk
    obtain rfl := texts_lit.1 htt
    refine ⟨rfl, rfl, wordEnds_iff.2 fun d hd => ?_⟩
    cases hw : lxWord d
    · rfl
    · exfalso
      cases rest with
      | nil => cases hd
      | cons e rest =>
        cases hd
        obtain ⟨c₀, v, e₀, hc₀, hv⟩ := spelling_word k
        have hs : RuleMatches ⟨rxString, false, fun t => some (.string t)⟩ (k.spelling ++ [d]) [] := by
          refine .plain rfl (texts_string.2 ⟨c₀, v ++ [d], by rw [e₀]; rfl, hc₀, ?_⟩)
          intro x hx
          rcases List.mem_append.1 hx with hx | hx
          · exact hv x hx
          · rw [List.mem_singleton.1 hx]; exact hw
        have := hmax 58 _ _ _ (ruleAt_iff.2 .string) hs (by simp)
        have hc := hm.context
        subst hc
        simp [kwRule] at this
        omega
  · rintro ⟨rfl, rfl, h⟩
    obtain ⟨i, ht⟩ := takes_keyword k (wordEnds_iff.1 h)
    exact lexStep_of_takes ht

/-- The words of the rules are the reserved words. -/
theorem reserved_iff (w : Str) : w ∈ reservedWords ↔ ∃ k : Keyword, k.spelling = w := by
  constructor
  · have : ∀ w ∈ reservedWords, w ∈ allKeywords.map Keyword.spelling := by decide
    intro h
    obtain ⟨k, _, e⟩ := List.mem_map.1 (this w h)
    exact ⟨k, e⟩
  · rintro ⟨k, rfl⟩
    cases k <;> decide

/-- **C48 (words).** A whole word is a reserved word if it is one of the list and a name
otherwise; unless it begins with `dnl` (an m4 comment) or, consisting of hexadecimal digits, is
followed by a colon (perhaps an address). -/
theorem C48_word {w rest : Str} (hw : IsNameWord w) (hend : WordEnds rest) (hdnl : ¬ cs!"dnl" <+: w)
    (h6 : rest.head? ≠ some ':' ∨ ∃ c ∈ w, lxHex c = false) :
    (w ∈ reservedWords → ∃ k : Keyword, k.spelling = w ∧ lexStep (w ++ rest) = .step (some (.kw k)) w rest) ∧
    (w ∉ reservedWords → lexStep (w ++ rest) = .step (some (.string w)) w rest) := by
  constructor
  · intro h
    obtain ⟨k, rfl⟩ := (reserved_iff w).1 h
    exact ⟨k, rfl, (C48_keyword k _ _ _).2 ⟨rfl, rfl, hend⟩⟩
  · intro h
    have := takes_word (i := 58) .string (.plain rfl (texts_string.2 (isWord_iff.1 hw))) (isWord_iff.1 hw)
      (wordEnds_iff.1 hend) (fun hx => by
        rcases h6 with h | ⟨c, hc, e⟩
        · exact h
        · rw [hx c hc] at e; cases e) hdnl
      (fun j k hj e => absurd ((reserved_iff w).2 ⟨k, e⟩) h) (Nat.le_refl _)
    exact lexStep_of_takes this

/-- **C48 (unknown characters).** A character is reported as unknown only if no other rule
matches anything at this place. -/
theorem C48_unknown {c : Char} {text rest : Str} {s : Str}
    (h : lexStep s = .step (some (.unknown c)) text rest) :
    text = [c] ∧ s = c :: rest ∧
      ∀ (j : Nat) (r : LexRule) (t x : Str), lexRules[j]? = some r → RuleMatches r t x → t ++ x <+: s → j = 87 := by
  obtain ⟨rfl, hne, i, r, ht, ha⟩ := lexStep_takes h
  obtain ⟨hr, x, hm, hc, hmax⟩ := ht
  have htt : Texts r.rx text := by cases hm <;> assumption
  have hr' := ruleAt hr
  cases hr' with
  | unknown =>
    obtain ⟨d, hd, rfl⟩ := texts_chars.1 htt
    cases ha
    refine ⟨rfl, rfl, fun j r' t' x' hr' hm' hp => ?_⟩
    have h₁ := hmax j r' t' x' hr' hm' hp
    have h₂ := List.length_pos_iff.2 (ruleMatches_nonempty (ruleAt hr') hm')
    have hx := hm.context
    subst hx
    simp at h₁
    have h₃ := h₁.2 (by omega)
    have h₄ := (List.getElem?_eq_some_iff.1 hr').1
    have h₅ : lexRules.length = 88 := rfl
    omega
  | _ => cases ha

/-- A file in which every rule kind occurs. -/
def lexExample : Str :=
  cs!"policy_module(foo, 1.0)\n\ntype foo_t; #selint-disable: W-001,C-002\nallow typex 1a:file { 7 -b }; # c\ndnl foo\n1.2.3.4 ::1 \"a.b\" @"

example : lexFile lexExample = some
    [(1, .kw .policyModule), (1, .p .openParen), (1, .string cs!"foo"), (1, .p .comma),
      (1, .versionNo cs!"1.0"), (1, .p .closeParen), (3, .kw .type), (3, .string cs!"foo_t"),
      (3, .p .semicolon), (3, .command cs!"#selint-disable: W-001,C-002"), (4, .kw .allow),
      (4, .string cs!"typex"), (4, .numString cs!"1a"), (4, .p .colon), (4, .string cs!"file"),
      (4, .p .openCurly), (4, .number cs!"7"), (4, .fileType), (4, .p .closeCurly),
      (4, .p .semicolon), (4, .comment), (6, .ipv4 cs!"1.2.3.4"), (6, .ipv6 cs!"::1"),
      (6, .quoted cs!"\"a.b\""), (6, .unknown '@')] := by decide +kernel

example : IsNameWord cs!"foo_t" ∧ WordEnds cs!"; x" :=
  ⟨⟨'f', cs!"oo_t", rfl, by decide, fun d hd => lxWord_iff.1 (by revert d; decide)⟩,
    fun c hc => by cases hc; exact fun h => absurd (lxWord_iff.2 h) (by decide)⟩

/-! ## C48: quirks -/

/-- A comment on a last line that is not ended by a newline is not recognised. -/
theorem C48_unterminated_comment {line : Str} (hl : '\n' ∉ line) :
    lexStep ('#' :: line) = .step (some (.unknown '#')) ['#'] line :=
  lexStep_of_takes (takes_hash hl)

/-- A name that begins with `dnl` hides the rest of its line. -/
example : lexFile cs!"type dnla_t;\nrole r;\n" =
    some [(1, .kw .type), (2, .kw .role), (2, .string cs!"r"), (2, .p .semicolon)] := by decide +kernel

/-- Names of at most four hexadecimal digits can be swallowed by addresses. -/
example : lexFile cs!"aa:bb:cc" = some [(1, .ipv6 cs!"aa:bb:cc")] := by decide +kernel

/-! ## What the parser gets -/

/-- The tokens of a file are as the theorems about the parser require. -/
theorem C48_tokens {s : Str} {ts : List (Nat × Token)} (h : lexFile s = some ts) :
    CommandsOk (ts.map Prod.snd) ∧ NamesOk (ts.map Prod.snd) := by
  have key : ∀ t ∈ ts.map Prod.snd, t.CommandOk ∧ t.NameOk := by
    intro t ht
    obtain ⟨⟨l, t⟩, hm, rfl⟩ := List.mem_map.1 ht
    obtain ⟨_, text, rest, _, _, _, hs⟩ := C48_line h hm
    obtain ⟨_, _, i, r, hk, ha⟩ := lexStep_takes hs
    exact token_ok hk ha.symm
  exact ⟨fun t ht => (key t ht).1, fun t ht => (key t ht).2⟩

/-! ## C49: commands -/

/-- A comment text in the documented form, listing the ids. -/
def Spec.Disables (comment : Str) (ids : List Str) : Prop :=
  ∃ (space : Bool) (text : Str), comment = cs!"#selint-disable:" ++ ((if space then [' '] else []) ++ text) ∧
    Listing ids text ∧ ∀ j ∈ ids, IsId j

theorem texts_disables {s : Str} : Texts rxCommand s ↔ ∃ ids, Disables s ids := by
  rw [texts_command]
  constructor
  · rintro ⟨sp, ids, text, h⟩; exact ⟨ids, sp, text, h⟩
  · rintro ⟨ids, sp, text, h⟩; exact ⟨sp, ids, text, h⟩

/-- **C49 (recognition).** From a `#` to the end of a line, the scanner finds a command if the
whole text has the documented form, and a comment otherwise. -/
theorem C49_recognised {line rest : Str} (hl : '\n' ∉ line) :
    ((∃ ids, Disables ('#' :: line) ids) →
      lexStep ('#' :: line ++ '\n' :: rest) = .step (some (.command ('#' :: line))) ('#' :: line) ('\n' :: rest)) ∧
    ((¬ ∃ ids, Disables ('#' :: line) ids) →
      lexStep ('#' :: line ++ '\n' :: rest) = .step (some .comment) ('#' :: line) ('\n' :: rest)) :=
  ⟨fun h => lexStep_of_takes (takes_command hl (texts_disables.2 h)),
    fun h => lexStep_of_takes (takes_comment hl (fun h' => h (texts_disables.1 h')))⟩

/-- **C49 (nothing else).** Every command token has the documented form and ends its line. -/
theorem C49_only {s c text rest : Str} (h : lexStep s = .step (some (.command c)) text rest) :
    c = text ∧ s = text ++ rest ∧ rest.head? = some '\n' ∧ ∃ ids, Disables c ids := by
  obtain ⟨rfl, hne, i, r, ht, ha⟩ := lexStep_takes h
  obtain ⟨hr, x, hm, hc, hmax⟩ := ht
  have htt : Texts r.rx text := by cases hm <;> assumption
  have hr' := ruleAt hr
  cases hr' with
  | command =>
    cases ha
    refine ⟨rfl, rfl, ?_, texts_disables.1 htt⟩
    have := hm.context
    subst this
    obtain ⟨v, rfl⟩ := hc
    rfl
  | unknown => cases text <;> cases ha
  | _ => cases ha

/-- **C49 (exceptions).** Saved at a node, a command makes the node an exception for a check
exactly if the check's id begins one of the listed ids; for ids of three digits, as all
existing ones, exactly if it is listed. -/
theorem C49_exceptions {c : Str} {ids : List Str} (h : Disables c ids) {w : Str} (hw : IsId w) (l : Loc)
    (i : NodeInfo) (hl : l.info = PState.saveCommand c i) :
    (Excepted w l ↔ ∃ j ∈ ids, w <+: j) ∧
      (w.length = 5 → (∀ j ∈ ids, j.length = 5) → (Excepted w l ↔ w ∈ ids)) := by
  obtain ⟨space, text, rfl, hL, hids⟩ := h
  have he : l.info.exceptions = some ((if space then [' '] else []) ++ text) := by
    rw [hl, saveCommand_eq (List.prefix_append _ _)]
    simp [exceptionsOf]
  refine ⟨C04_listed_prefix hw hL hids space l he, fun h₁ h₂ => ?_⟩
  exact C04_named_only_partial hw h₁ hL (fun j hj => ⟨hids j hj, h₂ j hj⟩) space l he

/-- **C49 (saved).** Any text as a command: from its first `s` on it has to begin with
`selint-disable:`, and then what follows is saved; otherwise the node stays as it is. -/
theorem C49_saved (c : Str) (i : NodeInfo) :
    (∀ before ids, c = before ++ (cs!"selint-disable:" ++ ids) → 's' ∉ before →
      PState.saveCommand c i = { i with exceptions := some ids }) ∧
    ((∀ before ids, c = before ++ (cs!"selint-disable:" ++ ids) → 's' ∈ before) →
      PState.saveCommand c i = i) := by
  constructor
  · rintro before ids rfl hb
    have hd : (before ++ (cs!"selint-disable:" ++ ids)).dropWhile (fun c => c ≠ 's') =
        cs!"selint-disable:" ++ ids := by
      rw [List.dropWhile_append_of_pos (fun x hx => by
        have : x ≠ 's' := fun e => hb (e ▸ hx)
        simp [this])]
      rfl
    simp only [PState.saveCommand, PState.commandExceptions, hd]
    simp
  · intro h
    have hn : PState.commandExceptions c = none := by
      rw [← Option.not_isSome_iff_eq_none, commandExceptions_isSome]
      intro hc
      obtain ⟨ids, e⟩ := List.isPrefixOf_iff_prefix.1 hc
      have hs : 's' ∉ c.takeWhile (fun c => decide (c ≠ 's')) := by
        intro hm
        have := List.all_eq_true.1 List.all_takeWhile _ hm
        simp at this
      exact hs (h _ ids (by rw [e]; exact (List.takeWhile_append_dropWhile).symm))
    simp [PState.saveCommand, hn]

/-- Non-vacuity: a text of either kind. -/
example (i : NodeInfo) : PState.saveCommand cs!"#selint-disable:E-003" i = { i with exceptions := some cs!"E-003" } ∧
    PState.saveCommand cs!"#selint-enable:E-003" i = i :=
  ⟨(C49_saved _ i).1 cs!"#" cs!"E-003" rfl (by decide), (C49_saved _ i).2 (by
    intro b ids e
    match b, e with
    | [], e => simp at e
    | [_], e => simp at e
    | _ :: y :: _, e => simp only [List.cons_append, List.cons.injEq] at e; simp [← e.2.1])⟩

/-- Non-vacuity. -/
example : Disables cs!"#selint-disable: E-003, W-001" [cs!"E-003", cs!"W-001"] := by
  refine ⟨true, cs!"E-003, W-001", rfl, .cons cs!"E-003" cs!", " (Or.inr rfl) (.one _), fun j hj => ?_⟩
  simp only [List.mem_cons, List.not_mem_nil, or_false] at hj
  rcases hj with rfl | rfl
  · exact ⟨'E', cs!"003", rfl, by decide, by decide, by decide⟩
  · exact ⟨'W', cs!"001", rfl, by decide, by decide, by decide⟩

/-- Texts that are not of the form are comments: other spacing, or anything after the list. -/
example : lexFile cs!"# selint-disable: E-003\n" = some [(1, .comment)] ∧
    lexFile cs!"#selint-disable: E-003 \n" = some [(1, .comment)] ∧
    lexFile cs!"#selint-disable: E-003\r\n" = some [(1, .comment)] ∧
    lexFile cs!"#selint-disable:E-003,\n" = some [(1, .comment)] := by decide +kernel

end Selint
