import Verif.Spec.Template
import Verif.Lemmas.M4
/-! # C20, C21: m4 substitution (`replace_m4`) -/

namespace Selint
open Spec

/-! ## Helpers -/

theorem isDigitC_iff (c : Char) : isDigitC c = true ↔ Digit c := by
  unfold isDigitC digitVal Digit
  rw [digit_mem_iff]
  constructor
  · intro h; split at h
    · assumption
    · simp at h
  · intro h
    have : (if '0'.toNat ≤ c.toNat ∧ c.toNat ≤ '9'.toNat then some (c.toNat - '0'.toNat) else none)
      = some (c.toNat - '0'.toNat) := if_pos h
    rw [this]; rfl

theorem isSpaceC_iff (c : Char) :
    isSpaceC c = true ↔ c ∈ [' ', '\t', '\n', '\x0b', '\x0c', '\r'] := by
  unfold isSpaceC; simp [or_assoc]

theorem digit_not_space {c : Char} (h : Digit c) : isSpaceC c = false := by
  unfold Digit at h
  simp only [List.mem_cons, List.not_mem_nil, or_false] at h
  rcases h with rfl | rfl | rfl | rfl | rfl | rfl | rfl | rfl | rfl | rfl <;> decide

theorem takeWhile_digits (ds rest : Str) (hd : ∀ c ∈ ds, Digit c)
    (hr : ∀ c, rest.head? = some c → ¬Digit c) :
    (ds ++ rest).takeWhile isDigitC = ds ∧ (ds ++ rest).dropWhile isDigitC = rest := by
  induction ds with
  | nil =>
    cases rest with
    | nil => simp
    | cons c rest =>
      have : isDigitC c = false := by
        have := hr c rfl
        rw [← isDigitC_iff] at this
        simpa using this
      simp [this]
  | cons c ds ih =>
    have h1 : isDigitC c = true := (isDigitC_iff c).mpr (hd c (by simp))
    have := ih (fun x hx => hd x (by simp [hx]))
    simp [h1, this]

/-- Shape of `scanInt` on an explicit blanks, sign, digits input. -/
theorem scanInt_eq (bl sg ds rest : Str) (hb : ∀ c ∈ bl, isSpaceC c = true)
    (hs : sg ∈ [cs!"", cs!"-", cs!"+"]) (hne : ds ≠ []) (hd : ∀ c ∈ ds, Digit c)
    (hr : ∀ c, rest.head? = some c → ¬Digit c) :
    scanInt (bl ++ sg ++ (ds ++ rest)) =
      some ((if sg = cs!"-" then -(Nat.ofDigitChars 10 ds 0 : Int) else Nat.ofDigitChars 10 ds 0), rest) := by
  obtain ⟨d, ds', rfl⟩ : ∃ d ds', ds = d :: ds' := by
    cases ds with
    | nil => simp at hne
    | cons d ds' => exact ⟨d, ds', rfl⟩
  have hdd : Digit d := hd d (by simp)
  have hnosp : ∀ c, (sg ++ (d :: ds' ++ rest)).head? = some c → isSpaceC c = false := by
    intro c hc
    simp only [List.mem_cons, List.not_mem_nil, or_false] at hs
    rcases hs with rfl | rfl | rfl
    · simp at hc; subst hc; exact digit_not_space hdd
    · simp at hc; subst hc; decide
    · simp at hc; subst hc; decide
  have hdrop : (bl ++ sg ++ (d :: ds' ++ rest)).dropWhile isSpaceC = sg ++ (d :: ds' ++ rest) := by
    rw [List.append_assoc]; exact dropWhile_blanks bl _ hb hnosp
  obtain ⟨e1, e2⟩ := takeWhile_digits (d :: ds') rest hd hr
  have e3 : atoiDigits 0 (d :: ds') = Nat.ofDigitChars 10 (d :: ds') 0 := by
    have := atoiDigits_append 0 (d :: ds') [] hd (by simp)
    simpa using this
  have hm : d ≠ '-' := by rintro rfl; exact absurd hdd (by decide)
  have hp : d ≠ '+' := by rintro rfl; exact absurd hdd (by decide)
  unfold scanInt
  simp only [hdrop]
  simp only [List.mem_cons, List.not_mem_nil, or_false] at hs
  rcases hs with rfl | rfl | rfl
  · simp only [List.nil_append]
    split
    · rename_i u heq; simp at heq; exact absurd heq.1 hm
    · rename_i u heq; simp at heq; exact absurd heq.1 hp
    · rename_i u _ _; rw [e1, e2]; simp [e3]
  · simp only [List.cons_append, List.nil_append] at *
    rw [e1, e2]; simp [e3]
  · simp only [List.cons_append, List.nil_append] at *
    rw [e1, e2]; simp [e3]

theorem scanInt_numeral {ds rest : Str} {v : Nat} (h : IsNumeral ds v rest) :
    scanInt (ds ++ rest) = some ((v : Int), rest) := by
  obtain ⟨h1, h2, rfl, h4⟩ := h
  have := scanInt_eq [] [] ds rest (by simp) (by simp) h1 h2 h4
  simpa using this

theorem numeral_of_digit {d : Char} {s : Str} (h : Digit d) :
    ∃ ds rest v, d :: s = ds ++ rest ∧ IsNumeral ds v rest := by
  obtain ⟨ds, rest, h1, h2, h3⟩ := split_digits (d :: s)
  refine ⟨ds, rest, _, h1, ?_, h2, rfl, h3⟩
  rintro rfl
  simp at h1; subst h1
  exact h3 d rfl h

theorem scanInt_isSome_iff (t : Str) : (scanInt t).isSome = true ↔ NumberAhead t := by
  constructor
  · intro h
    unfold scanInt at h
    simp only at h
    generalize ht : t.dropWhile isSpaceC = u at h
    have hs : t = t.takeWhile isSpaceC ++ u := by
      rw [← ht]; exact (List.takeWhile_append_dropWhile).symm
    have hsp : ∀ c ∈ t.takeWhile isSpaceC, c ∈ [' ', '\t', '\n', '\x0b', '\x0c', '\r'] := by
      intro c hc
      exact (isSpaceC_iff c).mp (List.all_eq_true.mp List.all_takeWhile _ hc)
    have key : ∀ w sg : Str, (w.takeWhile isDigitC).isEmpty = false → u = sg ++ w →
        sg ∈ [cs!"", cs!"-", cs!"+"] → NumberAhead t := by
      intro w sg hne hu hsg
      cases w with
      | nil => simp at hne
      | cons d w =>
        by_cases hd : isDigitC d = true
        · exact ⟨t.takeWhile isSpaceC, sg, d, w, by rw [List.append_assoc, ← hu]; exact hs, hsp, hsg,
            (isDigitC_iff d).mp hd⟩
        · simp [hd] at hne
    split at h
    · rename_i _ w
      split at h
      · simp at h
      · rename_i hne; exact key w ['-'] (by simpa using hne) rfl (by simp)
    · rename_i _ w
      split at h
      · simp at h
      · rename_i hne; exact key w ['+'] (by simpa using hne) rfl (by simp)
    · split at h
      · simp at h
      · rename_i hne; exact key u [] (by simpa using hne) rfl (by simp)
  · rintro ⟨bl, sg, d, rest, rfl, hb, hs, hd⟩
    obtain ⟨ds, r, v, h1, h2, h3, h4, h5⟩ := numeral_of_digit (s := rest) hd
    rw [h1, scanInt_eq bl sg ds r (fun c hc => (isSpaceC_iff c).mpr (hb c hc)) hs h2 h3 h5]
    rfl

theorem m4Arg_eq (args : List Str) (v : Nat) (hv : 1 ≤ v) : m4Arg args v = args[v - 1]? := by
  induction args generalizing v with
  | nil => simp [m4Arg]
  | cons a as ih =>
    unfold m4Arg
    by_cases h : (v : Int) > 1
    · rw [if_pos h]
      have : ((v : Int) - 1) = ((v - 1 : Nat) : Int) := by omega
      rw [this, ih (v - 1) (by omega)]
      obtain ⟨w, rfl⟩ : ∃ w, v = w + 2 := ⟨v - 2, by omega⟩
      simp
    · have : v = 1 := by omega
      subst this; simp

theorem m4Fun_none_iff (args : List Str) (n : Nat) : ∀ (t l : Bool) (s : Str), s.length ≤ n →
    (m4Fun args 0 t l s = none ↔ ∃ a b, s = a ++ '$' :: b ∧ scanInt b = none) := by
  induction n with
  | zero =>
    intro t l s hs
    cases s with
    | nil => simp [m4Fun]
    | cons c s => simp at hs
  | succ n ih =>
    intro t l s hs
    cases s with
    | nil => simp [m4Fun]
    | cons c s =>
      simp at hs
      by_cases hc : c = '$'
      · subst hc
        cases hsc : scanInt s with
        | none =>
          simp only [m4Fun, hsc, if_true, true_iff]
          exact ⟨[], s, rfl, hsc⟩
        | some q =>
          obtain ⟨v, rest⟩ := q
          obtain ⟨num, hnum, hne, hnd⟩ := scanInt_suffix hsc
          have hl : rest.length ≤ n := by
            have := congrArg List.length hnum; simp at this; omega
          rw [m4Fun_ref args t l s rest v hsc]
          have step : (∃ a b, '$' :: s = a ++ '$' :: b ∧ scanInt b = none) ↔
              ∃ a b, rest = a ++ '$' :: b ∧ scanInt b = none := by
            constructor
            · rintro ⟨a, b, h1, h2⟩
              cases a with
              | nil => simp at h1; subst h1; rw [hsc] at h2; simp at h2
              | cons x a =>
                simp at h1
                rw [hnum] at h1
                obtain ⟨-, h1⟩ := h1
                rw [List.append_eq_append_iff] at h1
                rcases h1 with ⟨w, hw1, hw2⟩ | ⟨w, hw1, hw2⟩
                · exact ⟨w, b, hw2, h2⟩
                · cases w with
                  | nil => exact ⟨[], b, by simpa using hw2.symm, h2⟩
                  | cons y w =>
                    simp at hw2
                    exact absurd (by rw [hw1]; simp [← hw2.1]) hnd
            · rintro ⟨a, b, rfl, h2⟩
              exact ⟨'$' :: num ++ a, b, by simp [hnum], h2⟩
          rw [step]
          cases m4Arg args v with
          | none => exact ih _ _ _ hl
          | some x => simp only [Option.map_eq_none_iff]; exact ih _ _ _ hl
      · simp only [m4Fun, if_neg hc, Option.map_eq_none_iff]
        rw [ih _ _ _ hs]
        constructor
        · rintro ⟨a, b, rfl, h2⟩; exact ⟨c :: a, b, rfl, h2⟩
        · rintro ⟨a, b, h1, h2⟩
          cases a with
          | nil => simp at h1; exact absurd h1.1 hc
          | cons x a => simp at h1; exact ⟨a, b, h1.2, h2⟩

theorem allMissing_cons_char {args : List Str} {c : Char} {s : Str} (hc : c ≠ '$') :
    ¬AllMissing args (c :: s) := by
  intro h
  generalize he : c :: s = w at h
  cases h with
  | nil => simp at he
  | ref => simp at he; exact hc he.1

/-- A numeral is determined by the text. -/
theorem numeral_unique {ds ds' s s' : Str} {v v' : Nat} (h : IsNumeral ds v s)
    (h' : IsNumeral ds' v' s') (e : ds ++ s = ds' ++ s') : v = v' ∧ s = s' := by
  have h1 := scanInt_numeral h
  have h2 := scanInt_numeral h'
  rw [e, h2] at h1
  simp at h1
  exact ⟨by omega, h1.2.symm⟩

theorem allMissing_ref {args : List Str} {ds s : Str} {v : Nat} (hn : IsNumeral ds v s) :
    AllMissing args ('$' :: ds ++ s) ↔ args.length < v ∧ AllMissing args s := by
  constructor
  · intro h
    generalize he : '$' :: ds ++ s = w at h
    cases h with
    | nil => simp at he
    | ref hn' hl hs =>
      simp at he
      obtain ⟨rfl, rfl⟩ := numeral_unique hn hn' he
      exact ⟨hl, hs⟩
  · rintro ⟨h1, h2⟩; exact .ref hn h1 h2

theorem endsMissing_ref {args : List Str} {ds s : Str} {v : Nat} (hn : IsNumeral ds v s)
    (hv : 1 ≤ v) : EndsMissing args ('$' :: ds ++ s) ↔ EndsMissing args s := by
  constructor
  · intro h
    generalize he : '$' :: ds ++ s = w at h
    cases h with
    | here hc _ _ => simp at he; exact absurd he.1.symm hc
    | char hc _ => simp at he; exact absurd he.1.symm hc
    | ref hn' hl hs =>
      simp at he
      obtain ⟨rfl, rfl⟩ := numeral_unique hn hn' he
      exact hs
  · exact .ref hn hv

theorem endsMissing_char {args : List Str} {c : Char} {s : Str} (hc : c ≠ '$') :
    EndsMissing args (c :: s) ↔ EndsMissing args s ∨ (s ≠ [] ∧ AllMissing args s) := by
  constructor
  · intro h
    generalize he : c :: s = w at h
    cases h with
    | here _ h1 h2 => simp at he; obtain ⟨-, rfl⟩ := he; exact Or.inr ⟨h1, h2⟩
    | char _ h1 => simp at he; obtain ⟨-, rfl⟩ := he; exact Or.inl h1
    | ref => simp at he; exact absurd he.1 hc
  · rintro (h | ⟨h1, h2⟩)
    · exact .char hc h
    · exact .here hc h1 h2

theorem not_both {args : List Str} {s : Str} (h : AllMissing args s) : ¬EndsMissing args s := by
  induction h with
  | nil => intro h; cases h
  | ref hn hl _ ih => rw [endsMissing_ref hn (by omega)]; exact ih

theorem subst_m4Fun {args : List Str} {s r : Str} (h : Subst args s r) (t l : Bool) :
    ∃ term, m4Fun args 0 t l s = some (r, term) ∧
      (s = [] → term = (t || l)) ∧ (s ≠ [] → AllMissing args s → term = t) ∧
      (¬AllMissing args s → (term = true ↔ ¬EndsMissing args s)) := by
  induction h generalizing t l with
  | nil => exact ⟨t || l, rfl, by simp, by simp, fun h => absurd AllMissing.nil h⟩
  | @char c s r hc _ ih =>
    obtain ⟨term, h1, h2, h3, h4⟩ := ih false true
    refine ⟨term, by simp [m4Fun, hc, h1], by simp, ?_, ?_⟩
    · intro _ h; exact absurd h (allMissing_cons_char hc)
    · intro _
      rw [endsMissing_char hc]
      by_cases hs : s = []
      · subst hs; have := h2 rfl; subst this
        simp; intro h; cases h
      · by_cases ha : AllMissing args s
        · have := h3 hs ha; subst this; simp [hs, ha]
        · simp [ha, h4 ha]
  | @ref ds s r v hn hv _ ih =>
    have e := m4Fun_ref args t l (ds ++ s) s v (scanInt_numeral hn)
    rw [m4Arg_eq args v hv] at e
    by_cases hl : args.length < v
    · have hnone : args[v - 1]? = none := by simp; omega
      rw [hnone] at e
      obtain ⟨term, h1, h2, h3, h4⟩ := ih t false
      refine ⟨term, by simp [e, hnone, h1], by simp, ?_, ?_⟩
      · intro _ ha
        have ha' := ((allMissing_ref hn).mp ha).2
        by_cases hs : s = []
        · simpa using h2 hs
        · exact h3 hs ha'
      · intro ha
        rw [endsMissing_ref hn hv]
        apply h4
        intro h'; exact ha ((allMissing_ref hn).mpr ⟨hl, h'⟩)
    · obtain ⟨a, ha⟩ : ∃ a, args[v - 1]? = some a := by
        have : v - 1 < args.length := by omega
        exact ⟨args[v - 1], by simp [this]⟩
      rw [ha] at e
      obtain ⟨term, h1, h2, h3, h4⟩ := ih true false
      refine ⟨term, by simp [e, ha, h1], by simp, ?_, ?_⟩
      · intro _ hm; exact absurd ((allMissing_ref hn).mp hm).1 hl
      · intro _
        rw [endsMissing_ref hn hv]
        by_cases hs : s = []
        · have := h2 hs; subst hs; subst this; simp; intro h; cases h
        · by_cases hm : AllMissing args s
          · have := h3 hs hm; subst this; simp [not_both hm]
          · exact h4 hm

/-! ## C20 -/

/-- C20 (text). Whenever the substitution asked for makes sense, that is, every `$` is
followed directly by a number from 1 up (so that `Subst` relates the text to its result `r`),
`replace_m4` returns exactly `r`, unless it runs into undefined behaviour (see C21). -/
theorem C20_substitutes {args : List Str} {s r : Str} (h : Subst args s r) :
    replaceM4 s args = .ok (some r) ∨ replaceM4 s args = .ub := by
  obtain ⟨term, h1, _⟩ := subst_m4Fun h true false
  have := replaceM4_eq s args
  rw [h1] at this
  simp only at this
  rw [this]
  split
  · exact Or.inl rfl
  · exact Or.inr rfl

/-- C20 (failure). A defined run of `replace_m4` fails exactly if some `$` is not followed by
a number. -/
theorem C20_fails_iff (s : Str) (args : List Str) (hub : replaceM4 s args ≠ .ub) :
    replaceM4 s args = .ok none ↔ ∃ a b, s = a ++ '$' :: b ∧ ¬NumberAhead b := by
  have h1 := m4Fun_none_iff args s.length true false s (Nat.le_refl _)
  have h2 : ∀ b, scanInt b = none ↔ ¬NumberAhead b := by
    intro b; rw [← scanInt_isSome_iff]; cases scanInt b <;> simp
  simp only [h2] at h1
  rw [← h1]
  have := replaceM4_eq s args
  cases hm : m4Fun args 0 true false s with
  | none =>
    rw [hm] at this
    simp only [iff_true]
    rcases this with h | h
    · exact h
    · exact absurd h hub
  | some p =>
    rw [hm] at this
    simp only at this
    rw [this]
    split <;> simp

/-- Every text whose references are numbered from 1 has a unique result, so the hypothesis of
`C20_substitutes` is met by exactly these texts. -/
theorem C20_result_exists {s : Str} {vs : List Nat} (h : Refs s vs) (args : List Str) :
    ∃ r, Subst args s r := by
  induction h with
  | nil => exact ⟨_, .nil⟩
  | char hc _ ih => obtain ⟨r, hr⟩ := ih; exact ⟨_, .char hc hr⟩
  | ref hn hv _ ih => obtain ⟨r, hr⟩ := ih; exact ⟨_, .ref hn hv hr⟩

/-- ... and only one. -/
theorem C20_result_unique {args : List Str} {s r r' : Str} (h : Subst args s r)
    (h' : Subst args s r') : r = r' := by
  obtain ⟨t1, h1, _⟩ := subst_m4Fun h true false
  obtain ⟨t2, h2, _⟩ := subst_m4Fun h' true false
  rw [h1] at h2; simp at h2; exact h2.1

/-- A reference to `$2` and one to a missing `$3`. -/
example : Subst [cs!"foo", cs!"bar"] cs!"a_$2$3_t" cs!"a_bar_t" := by
  refine .char (by decide) (.char (by decide) ?_)
  have h2 : IsNumeral cs!"2" 2 cs!"$3_t" := ⟨by decide, by decide, by decide, by simp; decide⟩
  have h3 : IsNumeral cs!"3" 3 cs!"_t" := ⟨by decide, by decide, by decide, by simp; decide⟩
  exact .ref h2 (by decide) (.ref h3 (by decide) (.char (by decide) (.char (by decide) .nil)))
example : replaceM4 cs!"a_$2$3_t" [cs!"foo", cs!"bar"] = .ok (some cs!"a_bar_t") := by decide
example : replaceM4 cs!"a_$*" [cs!"foo"] = .ok none := by decide

/-- C20 is false for `$0`, which m4 would replace by the macro's name: it is replaced by the
first argument. -/
theorem C20_zero_is_first : replaceM4 cs!"$0_t" [cs!"foo", cs!"bar"] = .ok (some cs!"foo_t") := by
  decide

/-! ## C21 -/

/-- C21 (exact condition). For a text that has a result, `replace_m4` stays in its buffer and
returns a terminated string exactly if the result is shorter than the buffer and the text
does not end with a plain character followed by references to missing arguments. -/
theorem C21_safe_iff {args : List Str} {s r : Str} (h : Subst args s r) :
    replaceM4 s args ≠ .ub ↔
      r.length < s.length + 1 + (args.map List.length).sum ∧ ¬EndsMissing args s := by
  obtain ⟨term, h1, h2, h3, h4⟩ := subst_m4Fun h true false
  have := replaceM4_eq s args
  rw [h1] at this
  simp only at this
  rw [this]
  have ht : term = true ↔ ¬EndsMissing args s := by
    by_cases hm : AllMissing args s
    · by_cases hs : s = []
      · simp [h2 hs, not_both hm]
      · simp [h3 hs hm, not_both hm]
    · exact h4 hm
  rw [← ht]
  unfold m4BufSize
  split
  · rename_i h; simp [h]
  · rename_i h; simp only [ne_eq, not_true, false_iff]; rintro ⟨h5, h6⟩; exact h ⟨h6, h5⟩

theorem sum_nodup_le (args : List Str) (vs : List Nat) (hn : vs.Nodup)
    (hv : ∀ v ∈ vs, 1 ≤ v ∧ v ≤ args.length) :
    (vs.map fun v => ((args[v - 1]?).getD []).length).sum ≤ (args.map List.length).sum := by
  induction args generalizing vs with
  | nil =>
    cases vs with
    | nil => simp
    | cons v vs => have := hv v (by simp); simp at this; omega
  | cons a as ih =>
    -- split off the references to `$1`
    have key : ∀ ws : List Nat, ws.Nodup → (∀ v ∈ ws, 1 ≤ v ∧ v ≤ (a :: as).length) →
        (ws.map fun v => (((a :: as)[v - 1]?).getD []).length).sum ≤
          (if 1 ∈ ws then a.length else 0) +
          (((ws.filter (· ≠ 1)).map (· - 1)).map fun v => ((as[v - 1]?).getD []).length).sum := by
      intro ws
      induction ws with
      | nil => simp
      | cons w ws ihw =>
        intro hnd hb
        simp only [List.nodup_cons] at hnd
        have := ihw hnd.2 (fun v hv => hb v (by simp [hv]))
        by_cases hw : w = 1
        · subst hw
          simp only [hnd.1, if_false] at this
          simp at this ⊢; omega
        · have hb1 := (hb w (by simp)).1
          obtain ⟨u, rfl⟩ : ∃ u, w = u + 2 := ⟨w - 2, by omega⟩
          have e : (1 ∈ (u + 2) :: ws) ↔ 1 ∈ ws := by simp
          simp only [e]
          simp at this ⊢
          omega
    have h1 := key vs hn hv
    have h2 := ih ((vs.filter (· ≠ 1)).map (· - 1))
      (by
        have hnd : (vs.filter (· ≠ 1)).Nodup := hn.filter _
        rw [List.nodup_iff_pairwise_ne] at hnd ⊢
        rw [List.pairwise_map]
        refine List.Pairwise.imp_of_mem ?_ hnd
        intro x y hx hy hne
        simp at hx hy
        have := (hv x hx.1).1
        have := (hv y hy.1).1
        omega)
      (by
        intro v hv'
        simp at hv'
        obtain ⟨w, ⟨hw, hw1⟩, rfl⟩ := hv'
        have := hv w hw
        simp at this
        omega)
    simp only [List.map_cons, List.sum_cons]
    split at h1 <;> omega

theorem refs_length {args : List Str} {s : Str} {vs : List Nat} (h : Refs s vs) {r : Str}
    (hr : Subst args s r) :
    r.length ≤ s.length + (vs.map fun v => ((args[v - 1]?).getD []).length).sum := by
  induction h generalizing r with
  | nil =>
    have := C20_result_unique hr .nil; subst this; simp
  | @char c s vs hc hs ih =>
    obtain ⟨r', hr'⟩ := C20_result_exists hs args
    have := C20_result_unique hr (.char hc hr'); subst this
    have := ih hr'; simp; omega
  | @ref ds s v vs hn hv hs ih =>
    obtain ⟨r', hr'⟩ := C20_result_exists hs args
    have := C20_result_unique hr (.ref hn hv hr'); subst this
    have := ih hr'; simp; omega

theorem refs_not_endsMissing {args : List Str} {s : Str} {vs : List Nat} (h : Refs s vs)
    (hv : ∀ v ∈ vs, v ≤ args.length) : ¬EndsMissing args s ∧ (AllMissing args s → s = []) := by
  induction h with
  | nil => exact ⟨(fun h => nomatch h), fun _ => rfl⟩
  | @char c s vs hc hs ih =>
    obtain ⟨h1, h2⟩ := ih hv
    constructor
    · rw [endsMissing_char hc]
      rintro (h | ⟨h3, h4⟩)
      · exact h1 h
      · exact h3 (h2 h4)
    · intro h; exact absurd h (allMissing_cons_char hc)
  | @ref ds s v vs hn hv1 hs ih =>
    obtain ⟨h1, h2⟩ := ih (fun x hx => hv x (by simp [hx]))
    constructor
    · rw [endsMissing_ref hn hv1]; exact h1
    · intro h
      have := ((allMissing_ref hn).mp h).1
      have := hv v (by simp)
      omega

/-- C21, restricted. If every argument is referred to at most once and every reference has an
argument, `replace_m4` neither leaves its buffer nor returns an unterminated string, and its
result is the specified one. The full property (no restriction on the references) is false,
see the two theorems below. -/
theorem C21_safe_partial {s : Str} {vs : List Nat} (args : List Str) (h : Refs s vs)
    (hn : vs.Nodup) (hv : ∀ v ∈ vs, v ≤ args.length) :
    ∃ r, Subst args s r ∧ replaceM4 s args = .ok (some r) := by
  obtain ⟨r, hr⟩ := C20_result_exists h args
  refine ⟨r, hr, ?_⟩
  have h1 : ∀ v ∈ vs, 1 ≤ v := by
    intro v hvm
    induction h generalizing r with
    | nil => simp at hvm
    | @char c s vs hc hs ih =>
      obtain ⟨r', hr'⟩ := C20_result_exists hs args
      exact ih hn hv r' hr' hvm
    | @ref ds s w vs _ hw hs ih =>
      obtain ⟨r', hr'⟩ := C20_result_exists hs args
      simp at hvm
      rcases hvm with rfl | hvm
      · exact hw
      · exact ih (by simp at hn; exact hn.2) (fun x hx => hv x (by simp [hx])) r' hr' hvm
  have hsafe : replaceM4 s args ≠ .ub := by
    rw [C21_safe_iff hr]
    refine ⟨?_, (refs_not_endsMissing h hv).1⟩
    have := refs_length h hr
    have := sum_nodup_le args vs hn (fun v hvm => ⟨h1 v hvm, hv v hvm⟩)
    omega
  rcases C20_substitutes hr with h2 | h2
  · exact h2
  · exact absurd h2 hsafe

/-- The hypotheses are met by a typical declaration in a template. -/
example : Refs cs!"$1_x_$2_t" [1, 2] := by
  have h1 : IsNumeral cs!"1" 1 cs!"_x_$2_t" := ⟨by decide, by decide, by decide, by simp; decide⟩
  have h2 : IsNumeral cs!"2" 2 cs!"_t" := ⟨by decide, by decide, by decide, by simp; decide⟩
  exact .ref h1 (by decide) (.char (by decide) (.char (by decide) (.char (by decide)
    (.ref h2 (by decide) (.char (by decide) (.char (by decide) .nil))))))

/-- C21 is false: an argument that is referred to twice overflows the buffer. -/
theorem C21_false_overflow : replaceM4 cs!"$1_$1" [cs!"my_application"] = .ub := by decide

/-- C21 is false: a text that ends with a reference to a missing argument gives an
unterminated string. -/
theorem C21_false_unterminated : replaceM4 cs!"foo_$2" [cs!"my"] = .ub := by decide

end Selint
