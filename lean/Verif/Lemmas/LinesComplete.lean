import Verif.Lemmas.BlockComplete
/-!
# The parser finds the lines of a block
-/

namespace Selint

/-- `rec` finds the lines of blocks with less than `k` tokens. -/
def LinesOk (k : Nat) (rec : Located → Option (Lines × Located)) : Prop :=
  ∀ (ls : Lines) (b rest : Located), ls.At b → b.length < k → HeadIs endsBlock rest →
    ∃ ls', rec (b ++ rest) = some (ls', rest) ∧ ls'.plain = ls.plain

/-- An argument ends before it. -/
def endsArg : Token → Bool
  | .p .comma => true
  | .p .closeParen => true
  | _ => false

theorem pM4Argument_complete {k : Nat} {rec : Located → Option (Lines × Located)} (hrec : LinesOk k rec)
    (a : M4Argument) {ts : Located} (h : a.At ts) (hk : ts.length ≤ k) {rest : Located}
    (hr : HeadIs endsArg rest) :
    ∃ a', pM4Argument rec (ts ++ rest) = some (a', rest) ∧ a'.plain = a.plain := by
  cases a with
  | empty =>
    simp only [M4Argument.At] at h
    subst h
    refine ⟨.empty, ?_, rfl⟩
    simp only [List.nil_append]
    unfold pM4Argument
    split
    · have := hr _ _ _ rfl; simp [endsArg] at this
    · have := hr _ _ _ rfl; simp [endsArg] at this
    · have := hr _ _ _ rfl; simp [endsArg] at this
    · rfl
  | emptyQuoted =>
    simp only [M4Argument.At, toks_eq_cons, toks_eq_nil] at h
    obtain ⟨n, _, rfl, m, _, rfl, rfl⟩ := h
    exact ⟨.emptyQuoted, rfl, rfl⟩
  | word s =>
    simp only [M4Argument.At, toks_eq_cons, toks_eq_nil] at h
    obtain ⟨n, _, rfl, rfl⟩ := h
    exact ⟨.word s, rfl, rfl⟩
  | quoted body =>
    simp only [M4Argument.At] at h
    obtain ⟨m, n, b, rfl, hb⟩ := h
    simp only [List.length_cons, List.length_append] at hk
    obtain ⟨ls', h1, h2⟩ := hrec body b ((n, tQuote) :: rest) hb (by omega) (.cons rfl)
    have hs : Starts b.toks := by rw [Lines.at_toks body hb]; exact body.starts
    refine ⟨.quoted ls', ?_, by simp only [M4Argument.plain, h2]⟩
    simp only [List.cons_append, List.append_assoc, List.nil_append, tTick]
    obtain ⟨q, t, r, e, ht, _⟩ := hs.located (b := (n, tQuote) :: rest)
    unfold pM4Argument
    split
    · rename_i e'
      injection e' with _ e'
      rw [e] at e'
      cases e'
      cases ht
    · rename_i e'
      injection e' with _ e'
      subst e'
      simp [h1]
    · rename_i e'; injection e' with e'; cases e'
    · rename_i h3 _; exact absurd rfl (h3 _ _)

theorem m4More_complete {k : Nat} {rec : Located → Option (Lines × Located)} (hrec : LinesOk k rec) (prev : Nat) :
    ∀ (as : M4Args) {b : Located}, as.At prev b → b.length ≤ k → ∀ {rest : Located}, HeadIs endsArg rest →
      ∃ K as', rest.length ≤ K ∧ as'.plain = as.plain ∧
        ((pM4Argument rec (b ++ rest)).bind fun x => m4More rec x.2.length (.one prev x.1) x.2) =
          m4More rec K as' rest
  | .one line a, b, h, hk, rest, hr => by
    simp only [M4Args.At] at h
    obtain ⟨rfl, h⟩ := h
    obtain ⟨a', h1, h2⟩ := pM4Argument_complete hrec a h hk hr
    exact ⟨rest.length, .one line a', Nat.le_refl _, by simp only [M4Args.plain, h2], by simp [h1]⟩
  | .more as line a, b, h, hk, rest, hr => by
    simp only [M4Args.At] at h
    obtain ⟨x, y, rfl, hx, hy⟩ := h
    simp only [List.length_append, List.length_cons] at hk
    obtain ⟨K, as', hK, hp, e⟩ := m4More_complete hrec prev as hx (by omega)
      (rest := (line, tComma) :: (y ++ rest)) (.cons rfl)
    obtain ⟨a', h1, h2⟩ := pM4Argument_complete hrec a hy (by omega) hr
    simp only [List.length_cons, List.length_append] at hK
    cases K with
    | zero => omega
    | succ K =>
      refine ⟨K, .more as' line a', by omega, by simp only [M4Args.plain, h2, hp], ?_⟩
      simp only [List.append_assoc, List.cons_append]
      rw [e]
      conv => lhs; unfold m4More
      simp [h1]

theorem pM4Args_complete {k : Nat} {rec : Located → Option (Lines × Located)} (hrec : LinesOk k rec)
    (as : M4Args) {prev : Nat} {b : Located} (h : as.At prev b) (hk : b.length ≤ k) (n : Nat)
    (rest : Located) :
    ∃ as', pM4Args rec prev (b ++ (n, tClose) :: rest) = some (as', rest) ∧ as'.plain = as.plain := by
  obtain ⟨K, as', _, hp, e⟩ := m4More_complete hrec prev as h hk (rest := (n, tClose) :: rest) (.cons rfl)
  refine ⟨as', ?_, hp⟩
  have hm : m4More rec K as' ((n, tClose) :: rest) = some (as', (n, tClose) :: rest) := by
    unfold m4More
    simp [expect_ne (t := tComma) (u := tClose) (by simp [tClose, tComma])]
  rw [hm] at e
  simp only [pM4Args, Option.bind_eq_bind]
  rw [← Option.bind_assoc, e]
  simp

/-! ## Statements -/

/-- The statement is found. -/
def Found (s : Stmt) (rest : Located) (r : Option (Stmt × Located)) : Prop :=
  ∃ s', r = some (s', rest) ∧ s'.plain = s.plain

theorem pOptional_complete {k : Nat} {rec : Located → Option (Lines × Located)} (hrec : LinesOk k rec)
    {line : Nat} {cmd : Option Str} {body : Lines} {ts : Located} (h : (Stmt.optional line cmd body).At ts)
    (hk : ts.length ≤ k) (rest : Located) :
    Found (.optional line cmd body) rest (stmtStep rec (ts ++ rest)) := by
  simp only [Stmt.At, Located.whole, List.cons_append, List.nil_append, toks_eq_cons, toks_eq_nil] at h
  obtain ⟨o, b, c, rfl, ⟨⟨n1, _, rfl, n2, _, rfl, n3, q, rfl, hq⟩, hf⟩, hb, m1, _, rfl, m2, _, rfl, rfl⟩ := h
  simp [Located.first, Located.lines] at hf
  subst hf
  simp at hk
  have hs : Starts b.toks := by rw [Lines.at_toks body hb]; exact body.starts
  obtain ⟨ls', h1, h2⟩ := hrec body b ((m1, tQuote) :: (m2, tClose) :: rest) hb (by omega) (.cons rfl)
  have hc := pCommand_complete (rest := b ++ (m1, tQuote) :: (m2, tClose) :: rest) hq hs.headIs
  have he := hs.expect_none (b := (m1, tQuote) :: (m2, tClose) :: rest) (t := tQuote) rfl
  exact ⟨.optional n1 cmd ls', by simp [stmtStep, pOptional, hc, he, h1], by simp only [Stmt.plain, h2]⟩

theorem pOptional_empty (rec : Located → Option (Lines × Located))
    {line : Nat} {cmd : Option Str} {ts : Located} (h : (Stmt.optionalEmpty line cmd).At ts) (rest : Located) :
    Found (.optionalEmpty line cmd) rest (stmtStep rec (ts ++ rest)) := by
  simp only [Stmt.At, Located.whole, List.cons_append, List.nil_append, toks_eq_cons, toks_eq_nil] at h
  obtain ⟨o, c, rfl, ⟨⟨n1, _, rfl, n2, _, rfl, n3, q, rfl, hq⟩, hf⟩, m1, _, rfl, m2, _, rfl, rfl⟩ := h
  simp [Located.first, Located.lines] at hf
  subst hf
  have hc := pCommand_complete (rest := (m1, tQuote) :: (m2, tClose) :: rest) hq (.cons rfl)
  exact ⟨_, by simp [stmtStep, pOptional, hc], rfl⟩

theorem pOptional_else {k : Nat} {rec : Located → Option (Lines × Located)} (hrec : LinesOk k rec)
    {line : Nat} {cmd : Option Str} {body : Lines} {l : Nat} {els : Lines} {ts : Located}
    (h : (Stmt.optionalElse line cmd body l els).At ts) (hk : ts.length ≤ k) (rest : Located) :
    Found (.optionalElse line cmd body l els) rest (stmtStep rec (ts ++ rest)) := by
  simp only [Stmt.At, Located.whole, List.cons_append, List.nil_append, toks_eq_cons, toks_eq_nil] at h
  obtain ⟨o, b, m, e, c, rfl, ⟨⟨n1, _, rfl, n2, _, rfl, n3, q, rfl, hq⟩, hf⟩, hb,
    ⟨k1, _, rfl, k2, _, rfl, k3, _, rfl, rfl⟩, hl, he, m1, _, rfl, m2, _, rfl, rfl⟩ := h
  simp [Located.first, Located.last, Located.lines] at hf hl
  subst hf hl
  simp at hk
  have hs : Starts b.toks := by rw [Lines.at_toks body hb]; exact body.starts
  obtain ⟨ls', h1, h2⟩ := hrec body b ((k1, tQuote) :: (k2, tComma) :: (k3, tTick) ::
    (e ++ (m1, tQuote) :: (m2, tClose) :: rest)) hb (by omega) (.cons rfl)
  obtain ⟨es', h3, h4⟩ := hrec els e ((m1, tQuote) :: (m2, tClose) :: rest) he (by omega) (.cons rfl)
  have hc := pCommand_complete (rest := b ++ (k1, tQuote) :: (k2, tComma) :: (k3, tTick) ::
    (e ++ (m1, tQuote) :: (m2, tClose) :: rest)) hq hs.headIs
  have hx := hs.expect_none (b := (k1, tQuote) :: (k2, tComma) :: (k3, tTick) ::
    (e ++ (m1, tQuote) :: (m2, tClose) :: rest)) (t := tQuote) rfl
  exact ⟨.optionalElse n1 cmd ls' k3 es', by
    simp [stmtStep, pOptional, hc, hx, h1, h3, expect_ne (t := tClose) (u := tComma) (by simp [tClose, tComma])],
    by simp only [Stmt.plain, h2, h4]⟩

theorem pGenRequire_complete (rec : Located → Option (Lines × Located))
    {line : Nat} {cmd cmd' : Option Str} {body : ReqLines} {ts : Located}
    (h : (Stmt.genRequire line cmd cmd' body).At ts) (rest : Located) :
    Found (.genRequire line cmd cmd' body) rest (stmtStep rec (ts ++ rest)) := by
  simp only [Stmt.At, Located.whole, List.cons_append, List.nil_append, toks_eq_cons, toks_eq_nil] at h
  obtain ⟨o, m, b, c, rfl, ⟨⟨n1, _, rfl, n2, q, rfl, hq⟩, hf⟩, ⟨n3, p, rfl, hp⟩, hb, m1, _, rfl, m2, _, rfl, rfl⟩ := h
  simp [Located.first, Located.lines] at hf
  subst hf
  have hs : Starts b.toks := by rw [ReqLines.at_toks body hb]; exact body.starts
  have h1 := pReqLines_complete body (rest := (m1, tQuote) :: (m2, tClose) :: rest) hb (.cons rfl)
  have hc' := pCommand_complete (rest := b ++ (m1, tQuote) :: (m2, tClose) :: rest) hp hs.headIs
  have hc : pCommand (q ++ (n3, tTick) :: (p ++ (b ++ (m1, tQuote) :: (m2, tClose) :: rest))) =
      (cmd, (n3, tTick) :: (p ++ (b ++ (m1, tQuote) :: (m2, tClose) :: rest))) := by
    cases cmd with
    | none =>
      simp only [commandTokens, toks_eq_nil] at hq
      subst hq
      rfl
    | some s =>
      simp only [commandTokens, toks_eq_cons, toks_eq_nil] at hq
      obtain ⟨_, _, rfl, rfl⟩ := hq
      rfl
  exact ⟨.genRequire n1 cmd cmd' body, by simp [stmtStep, pGenRequire, hc, hc', h1], rfl⟩

theorem pGenRequire_unquoted (rec : Located → Option (Lines × Located))
    {line : Nat} {cmd : Option Str} {body : ReqLines} {ts : Located}
    (h : (Stmt.genRequireUnquoted line cmd body).At ts) (rest : Located) :
    Found (.genRequireUnquoted line cmd body) rest (stmtStep rec (ts ++ rest)) := by
  simp only [Stmt.At, Located.whole, List.cons_append, List.nil_append, toks_eq_cons, toks_eq_nil] at h
  obtain ⟨o, b, c, rfl, ⟨⟨n1, _, rfl, n2, q, rfl, hq⟩, hf⟩, hb, m2, _, rfl, rfl⟩ := h
  simp [Located.first, Located.lines] at hf
  subst hf
  have hs : Starts b.toks := by rw [ReqLines.at_toks body hb]; exact body.starts
  have h1 := pReqLines_complete body (rest := (m2, tClose) :: rest) hb (.cons rfl)
  have hc := pCommand_complete (rest := b ++ (m2, tClose) :: rest) hq hs.headIs
  have hx := hs.expect_none (b := (m2, tClose) :: rest) (t := tTick) rfl
  exact ⟨.genRequireUnquoted n1 cmd body, by simp [stmtStep, pGenRequire, hc, hx, h1], rfl⟩

theorem pRequire_complete (rec : Located → Option (Lines × Located))
    {line : Nat} {cmd : Option Str} {body : ReqLines} {ts : Located}
    (h : (Stmt.require line cmd body).At ts) (rest : Located) :
    Found (.require line cmd body) rest (stmtStep rec (ts ++ rest)) := by
  simp only [Stmt.At, Located.whole, List.cons_append, List.nil_append, toks_eq_cons, toks_eq_nil] at h
  obtain ⟨o, b, c, rfl, ⟨n1, _, rfl, n2, q, rfl, hq⟩, hl, hb, m2, _, rfl, rfl⟩ := h
  have h1 := pReqLines_complete body (rest := (m2, tRight) :: rest) hb (.cons rfl)
  cases cmd with
  | none =>
    simp only [commandTokens, toks_eq_nil] at hq
    subst hq
    simp [Located.last, Located.lines] at hl
    subst hl
    have hs : Starts b.toks := by rw [ReqLines.at_toks body hb]; exact body.starts
    obtain ⟨n, t, r, e, ht, _⟩ := hs.located (b := (m2, tRight) :: rest)
    refine ⟨.require n2 none body, ?_, rfl⟩
    simp only [List.cons_append, List.nil_append, List.append_assoc, stmtStep, pRequire, expect_cons,
      Option.bind_eq_bind, Option.bind_some]
    split
    · rename_i e'
      rw [e] at e'
      cases e'
      cases ht
    · simp [h1]
  | some s =>
    simp only [commandTokens, toks_eq_cons, toks_eq_nil] at hq
    obtain ⟨n3, _, rfl, rfl⟩ := hq
    simp [Located.last, Located.lines] at hl
    subst hl
    exact ⟨.require n3 (some s) body, by simp [stmtStep, pRequire, h1], rfl⟩

theorem pIfdef_complete {k : Nat} {rec : Located → Option (Lines × Located)} (hrec : LinesOk k rec)
    {line : Nat} {negated : Bool} {cond : Str} {args : M4Args} {ts : Located}
    (h : (Stmt.ifdef line negated cond args).At ts) (hk : ts.length ≤ k) (rest : Located) :
    Found (.ifdef line negated cond args) rest (stmtStep rec (ts ++ rest)) := by
  simp only [Stmt.At, toks_eq_cons, toks_eq_nil] at h
  obtain ⟨o, b, c, rfl, ⟨n1, _, rfl, n2, _, rfl, n3, _, rfl, n4, _, rfl, n5, _, rfl, n6, _, rfl, rfl⟩, hl, ha,
    m, _, rfl, rfl⟩ := h
  simp [Located.last, Located.lines] at hl
  subst hl
  simp at hk
  obtain ⟨as', h1, h2⟩ := pM4Args_complete hrec args ha (by omega) m rest
  refine ⟨.ifdef n6 negated cond as', ?_, by simp only [Stmt.plain, h2]⟩
  cases negated <;> simp [stmtStep, ifKeyword, pIfdef, h1]

theorem pIfelse_complete {k : Nat} {rec : Located → Option (Lines × Located)} (hrec : LinesOk k rec)
    {line : Nat} {args : M4Args} {ts : Located}
    (h : (Stmt.ifelse line args).At ts) (hk : ts.length ≤ k) (rest : Located) :
    Found (.ifelse line args) rest (stmtStep rec (ts ++ rest)) := by
  simp only [Stmt.At, toks_eq_cons, toks_eq_nil] at h
  obtain ⟨o, b, c, rfl, ⟨n1, _, rfl, n2, _, rfl, rfl⟩, hl, ha, m, _, rfl, rfl⟩ := h
  simp [Located.last, Located.lines] at hl
  subst hl
  simp at hk
  obtain ⟨as', h1, h2⟩ := pM4Args_complete hrec args ha (by omega) m rest
  exact ⟨.ifelse n2 as', by simp [stmtStep, pIfelse, h1], by simp only [Stmt.plain, h2]⟩

theorem pUserdebug_complete {k : Nat} {rec : Located → Option (Lines × Located)} (hrec : LinesOk k rec)
    {body : Lines} {ts : Located} (h : (Stmt.userdebugOrEng body).At ts) (hk : ts.length ≤ k)
    (rest : Located) : Found (.userdebugOrEng body) rest (stmtStep rec (ts ++ rest)) := by
  simp only [Stmt.At, toks_eq_cons, toks_eq_nil] at h
  obtain ⟨o, b, c, rfl, ⟨n1, _, rfl, n2, _, rfl, n3, _, rfl, rfl⟩, hb, m1, _, rfl, m2, _, rfl, rfl⟩ := h
  simp at hk
  obtain ⟨ls', h1, h2⟩ := hrec body b ((m1, tQuote) :: (m2, tClose) :: rest) hb (by omega) (.cons rfl)
  exact ⟨.userdebugOrEng ls', by simp [stmtStep, pUserdebug, h1], by simp only [Stmt.plain, h2]⟩

theorem lift_cond (c : Condition) {o rest : Located} (h : o.toks = c.tokens) (hr : NoOp rest.toks) :
    ∃ c', lift pCond (o ++ rest) = some (c', rest) := by
  obtain ⟨c', hc⟩ := pCond_complete c hr
  exact ⟨c', lift_complete (by rw [h]; exact hc)⟩

theorem noOp_cons {n : Nat} {t : Token} {r : Located} (h : condOp t = none) :
    NoOp (Located.toks ((n, t) :: r)) := by
  intro t' r' e
  cases e
  exact h

theorem Condition.head (c : Condition) : ∃ t r, c.tokens = t :: r ∧ t ≠ tTick ∧ ∀ s, t ≠ .command s := by
  induction c with
  | name s => exact ⟨_, _, rfl, by simp [tTick], by simp⟩
  | not c => exact ⟨_, _, rfl, by simp [tTick], by simp⟩
  | paren c => exact ⟨_, _, rfl, by simp [tTick, tOpen], by simp [tOpen]⟩
  | _ c d ihc ihd =>
    obtain ⟨t, r, e, h⟩ := ihc
    exact ⟨t, _, by simp only [Condition.tokens, e, List.cons_append]; rfl, h⟩

theorem pTunable_complete {k : Nat} {rec : Located → Option (Lines × Located)} (hrec : LinesOk k rec)
    {line : Nat} {quoted : Bool} {cond : Condition} {args : M4Args} {ts : Located}
    (h : (Stmt.tunable line quoted cond args).At ts) (hk : ts.length ≤ k) (rest : Located) :
    Found (.tunable line quoted cond args) rest (stmtStep rec (ts ++ rest)) := by
  simp only [Stmt.At] at h
  obtain ⟨o, m, b, c, prev, rfl, ho, hl, hm, hp, ha, hc⟩ := h
  simp only [toks_eq_cons, toks_eq_nil] at hc
  obtain ⟨z, _, rfl, rfl⟩ := hc
  cases quoted with
  | true =>
    simp only [if_true, List.cons_append, List.nil_append, List.append_assoc, toks_eq_cons, toks_eq_nil] at ho
    rw [if_pos rfl, List.append_assoc] at hm
    obtain ⟨q, w, rfl, hq, hw⟩ := toks_eq_append.1 hm
    simp only [List.cons_append, List.nil_append, toks_eq_cons, toks_eq_nil] at hw
    obtain ⟨n1, _, rfl, n2, _, rfl, n3, _, rfl, rfl⟩ := ho
    obtain ⟨m1, _, rfl, m2, _, rfl, rfl⟩ := hw
    simp [Located.last, Located.lines] at hl hp
    subst hl hp
    simp at hk
    obtain ⟨as', h1, h2⟩ := pM4Args_complete hrec args ha (by omega) z rest
    obtain ⟨c', hc'⟩ := lift_cond cond (rest := (m1, tQuote) :: (m2, tComma) :: (b ++ (z, tClose) :: rest)) hq
      (noOp_cons rfl)
    exact ⟨.tunable n3 true c' as', by simp [stmtStep, pTunable, hc', h1], by simp only [Stmt.plain, h2]⟩
  | false =>
    simp only [Bool.false_eq_true, if_false, List.append_nil, List.cons_append, List.nil_append, toks_eq_cons,
      toks_eq_nil] at ho
    rw [if_neg (by simp), List.append_nil] at hm
    obtain ⟨q, w, rfl, hq, hw⟩ := toks_eq_append.1 hm
    simp only [toks_eq_cons, toks_eq_nil] at hw
    obtain ⟨n1, _, rfl, n2, _, rfl, rfl⟩ := ho
    obtain ⟨m2, _, rfl, rfl⟩ := hw
    simp [Located.last, Located.lines] at hl hp
    subst hl hp
    simp at hk
    obtain ⟨as', h1, h2⟩ := pM4Args_complete hrec args ha (by omega) z rest
    obtain ⟨c', hc'⟩ := lift_cond cond (rest := (m2, tComma) :: (b ++ (z, tClose) :: rest)) hq (noOp_cons rfl)
    obtain ⟨t, r, e, ht, _⟩ := cond.head
    rw [e, toks_eq_cons] at hq
    obtain ⟨x, q', rfl, _⟩ := hq
    simp only [List.cons_append] at hc'
    refine ⟨.tunable n2 false c' as', ?_, by simp only [Stmt.plain, h2]⟩
    simp [stmtStep, pTunable, hc', h1, expect_ne ht]

theorem pCommand_cond {cmd : Option Str} {q m rest : Located} {c : Condition} (hq : q.toks = commandTokens cmd)
    (hm : m.toks = c.tokens) : pCommand (q ++ (m ++ rest)) = (cmd, m ++ rest) := by
  cases cmd with
  | some s =>
    simp only [commandTokens, toks_eq_cons, toks_eq_nil] at hq
    obtain ⟨n, _, rfl, rfl⟩ := hq
    rfl
  | none =>
    simp only [commandTokens, toks_eq_nil] at hq
    subst hq
    obtain ⟨t, r, e, _, ht⟩ := c.head
    rw [e, toks_eq_cons] at hm
    obtain ⟨x, q', rfl, _⟩ := hm
    simp only [List.nil_append, List.cons_append]
    unfold pCommand
    split
    · rename_i e'
      cases e'
      exact absurd rfl (ht _)
    · rfl

theorem pBoolean_complete {k : Nat} {rec : Located → Option (Lines × Located)} (hrec : LinesOk k rec)
    {line : Nat} {cmd : Option Str} {cond : Condition} {body : Lines} {ts : Located}
    (h : (Stmt.boolean line cmd cond body).At ts) (hk : ts.length ≤ k) {rest : Located}
    (hr : HeadIs endsStmt rest) :
    Found (.boolean line cmd cond body) rest (stmtStep rec (ts ++ rest)) := by
  simp only [Stmt.At, Located.whole, List.cons_append, List.nil_append, toks_eq_cons, toks_eq_append,
    toks_eq_nil] at h
  obtain ⟨o, m, b, c, rfl, ⟨⟨n1, _, rfl, n2, q, rfl, hq⟩, hf⟩, ⟨p, _, rfl, hp, k1, _, rfl, k2, _, rfl, rfl⟩, hb,
    z, _, rfl, rfl⟩ := h
  simp [Located.first, Located.lines] at hf
  subst hf
  simp at hk
  obtain ⟨ls', h1, h2⟩ := hrec body b ((z, tRight) :: rest) hb (by omega) (.cons rfl)
  obtain ⟨c', hc'⟩ := lift_cond cond (rest := (k1, tClose) :: (k2, tLeft) :: (b ++ (z, tRight) :: rest)) hp
    (noOp_cons rfl)
  have hc := pCommand_cond (rest := (k1, tClose) :: (k2, tLeft) :: (b ++ (z, tRight) :: rest)) hq hp
  have he : expect (.kw .kwElse) rest = none := by
    cases rest with
    | nil => rfl
    | cons u r =>
      obtain ⟨n, t⟩ := u
      refine expect_ne ?_ _ _
      rintro rfl
      have := hr _ _ _ rfl
      simp [endsStmt, endsLine, startsStmt, endsBlock] at this
  exact ⟨.boolean n1 cmd c' ls', by simp [stmtStep, pBoolean, hc, hc', h1, he], by simp only [Stmt.plain, h2]⟩

theorem pBoolean_else {k : Nat} {rec : Located → Option (Lines × Located)} (hrec : LinesOk k rec)
    {line : Nat} {cmd : Option Str} {cond : Condition} {body els : Lines} {ts : Located}
    (h : (Stmt.booleanElse line cmd cond body els).At ts) (hk : ts.length ≤ k) (rest : Located) :
    Found (.booleanElse line cmd cond body els) rest (stmtStep rec (ts ++ rest)) := by
  simp only [Stmt.At, Located.whole, List.cons_append, List.nil_append, toks_eq_cons, toks_eq_append,
    toks_eq_nil] at h
  obtain ⟨o, m, b, n, e, c, rfl, ⟨⟨n1, _, rfl, n2, q, rfl, hq⟩, hf⟩, ⟨p, _, rfl, hp, k1, _, rfl, k2, _, rfl, rfl⟩,
    hb, ⟨j1, _, rfl, j2, _, rfl, j3, _, rfl, rfl⟩, he, z, _, rfl, rfl⟩ := h
  simp [Located.first, Located.lines] at hf
  subst hf
  simp at hk
  obtain ⟨ls', h1, h2⟩ := hrec body b ((j1, tRight) :: (j2, .kw .kwElse) :: (j3, tLeft) ::
    (e ++ (z, tRight) :: rest)) hb (by omega) (.cons rfl)
  obtain ⟨es', h3, h4⟩ := hrec els e ((z, tRight) :: rest) he (by omega) (.cons rfl)
  obtain ⟨c', hc'⟩ := lift_cond cond (rest := (k1, tClose) :: (k2, tLeft) :: (b ++ (j1, tRight) ::
    (j2, .kw .kwElse) :: (j3, tLeft) :: (e ++ (z, tRight) :: rest))) hp (noOp_cons rfl)
  have hc := pCommand_cond (rest := (k1, tClose) :: (k2, tLeft) :: (b ++ (j1, tRight) ::
    (j2, .kw .kwElse) :: (j3, tLeft) :: (e ++ (z, tRight) :: rest))) hq hp
  exact ⟨.booleanElse n1 cmd c' ls' es', by simp [stmtStep, pBoolean, hc, hc', h1, h3],
    by simp only [Stmt.plain, h2, h4]⟩

theorem pDefineName_complete (quoted : Bool) (s : Str) (r : List Token) :
    pDefineName (defineNameTokens quoted s ++ r) = some ((quoted, s), r) := by
  cases quoted <;> rfl

theorem pDefineContent_complete (c : DefineContent) (r : List Token) :
    pDefineContent (c.tokens ++ tClose :: r) = some (c, tClose :: r) := by
  cases c with
  | none => rfl
  | empty => rfl
  | word s => rfl
  | text s => simp [DefineContent.tokens, tComma, tTick, pDefineContent, pM4String_complete]

theorem pDefine_complete (rec : Located → Option (Lines × Located))
    {line : Nat} {quoted : Bool} {name : Str} {content : DefineContent} {ts : Located}
    (h : (Stmt.define line quoted name content).At ts) (rest : Located) :
    Found (.define line quoted name content) rest (stmtStep rec (ts ++ rest)) := by
  simp only [Stmt.At, toks_eq_append] at h
  obtain ⟨o, c, rfl, ho, hl, x, y, rfl, ⟨p, q, rfl, hp, hq⟩, hy⟩ := h
  simp only [toks_eq_cons, toks_eq_nil] at ho hy
  obtain ⟨n1, _, rfl, n2, _, rfl, rfl⟩ := ho
  obtain ⟨m, _, rfl, rfl⟩ := hy
  simp [Located.last, Located.lines] at hl
  subst hl
  have h1 : lift pDefineName (p ++ (q ++ (m, tClose) :: rest)) = some ((quoted, name), q ++ (m, tClose) :: rest) :=
    lift_complete (by rw [hp]; exact pDefineName_complete _ _ _)
  have h2 : lift pDefineContent (q ++ (m, tClose) :: rest) = some (content, (m, tClose) :: rest) :=
    lift_complete (by rw [hq]; exact pDefineContent_complete _ _)
  exact ⟨_, by simp [stmtStep, pDefine, h1, h2], rfl⟩

/-- None of the keywords of statements with blocks. -/
def flatStart : Token → Bool
  | .kw k => !([.optionalPolicy, .genRequire, .require, .ifdef, .ifndef, .ifelse, .userdebugOrEng,
      .tunablePolicy, .kwIf, .define] : List Keyword).contains k
  | _ => true

theorem stmtStep_flat (rec : Located → Option (Lines × Located)) {n : Nat} {t : Token} (r : Located)
    (h : flatStart t = true) : stmtStep rec ((n, t) :: r) = pFlat n ((n, t) :: r) := by
  unfold stmtStep
  split
  case h_11 => rename_i e; cases e; rfl
  case h_12 => simp_all
  all_goals
    rename_i e
    cases e
    exact absurd h (by decide)

theorem Silent.flat (s : Silent) : ∃ t r, s.tokens = t :: r ∧ flatStart t = true := by
  cases s with
  | fsUse k h => exact ⟨_, _, rfl, by rcases h with rfl | rfl | rfl <;> rfl⟩
  | _ => exact ⟨_, _, rfl, rfl⟩

theorem Simple.flat (s : Simple) : ∃ t r, s.tokens = t :: r ∧ flatStart t = true := by
  cases s with
  | decl d => cases d <;> exact ⟨_, _, rfl, rfl⟩
  | rule fl => exact ⟨_, _, rfl, by cases fl <;> rfl⟩
  | xrule fl => exact ⟨_, _, rfl, by cases fl <;> rfl⟩
  | _ => exact ⟨_, _, rfl, rfl⟩

theorem silent_complete (rec : Located → Option (Lines × Located)) {s : Silent} {ts : Located}
    (h : (Stmt.silent s).At ts) {rest : Located} (hr : HeadIs endsStmt rest) :
    Found (.silent s) rest (stmtStep rec (ts ++ rest)) := by
  simp only [Stmt.At] at h
  have h1 : lift pSilent (ts ++ rest) = some (s, rest) :=
    lift_complete (by
      rw [h]
      exact pSilent_complete s (hr.notHead (by
        intro t ht; simp only [List.mem_cons, List.not_mem_nil, or_false] at ht
        rcases ht with rfl | rfl | rfl <;> rfl)))
  obtain ⟨t, r, e, hf⟩ := s.flat
  rw [e, toks_eq_cons] at h
  obtain ⟨n, r', rfl, _⟩ := h
  refine ⟨.silent s, ?_, rfl⟩
  simp only [List.cons_append] at h1 ⊢
  rw [stmtStep_flat rec _ hf]
  simp [pFlat, h1]

/-- A simple statement is not one without a node. -/
theorem pSilent_simple (s : Simple) (r : List Token) : pSilent (s.tokens ++ r) = none := by
  cases s with
  | decl d => cases d <;> rfl
  | rule fl => cases fl <;> rfl
  | xrule fl => cases fl <;> rfl
  | _ => rfl

theorem simple_complete (rec : Located → Option (Lines × Located)) {line : Nat} {s : Simple} {ts : Located}
    (h : (Stmt.simple line s).At ts) {rest : Located} (hr : HeadIs endsStmt rest) :
    Found (.simple line s) rest (stmtStep rec (ts ++ rest)) := by
  simp only [Stmt.At, Located.whole] at h
  obtain ⟨h, hl⟩ := h
  have h1 : lift pSimple (ts ++ rest) = some (s, rest) :=
    lift_complete (by
      rw [h]
      exact pSimple_complete s (hr.notHead (by
        intro t ht; simp only [List.mem_cons, List.not_mem_nil, or_false] at ht
        rcases ht with rfl; rfl)))
  have h2 : lift pSilent (ts ++ rest) = none := by
    simp only [lift, Located.toks_append, h, pSilent_simple, Option.map_none]
  obtain ⟨t, r, e, hf⟩ := s.flat
  rw [e, toks_eq_cons] at h
  obtain ⟨n, r', rfl, _⟩ := h
  simp [Located.first, Located.lines] at hl
  subst hl
  refine ⟨.simple n s, ?_, rfl⟩
  simp only [List.cons_append] at h1 h2 ⊢
  rw [stmtStep_flat rec _ hf]
  simp [pFlat, h1, h2]

theorem stmtStep_complete {k : Nat} {rec : Located → Option (Lines × Located)} (hrec : LinesOk k rec)
    (s : Stmt) {ts : Located} (h : s.At ts) (hk : ts.length ≤ k) {rest : Located}
    (hr : HeadIs endsStmt rest) : Found s rest (stmtStep rec (ts ++ rest)) := by
  cases s with
  | silent s => exact silent_complete rec h hr
  | simple line s => exact simple_complete rec h hr
  | optional => exact pOptional_complete hrec h hk rest
  | optionalEmpty => exact pOptional_empty rec h rest
  | optionalElse => exact pOptional_else hrec h hk rest
  | genRequire => exact pGenRequire_complete rec h rest
  | genRequireUnquoted => exact pGenRequire_unquoted rec h rest
  | require => exact pRequire_complete rec h rest
  | ifdef => exact pIfdef_complete hrec h hk rest
  | ifelse => exact pIfelse_complete hrec h hk rest
  | userdebugOrEng => exact pUserdebug_complete hrec h hk rest
  | tunable => exact pTunable_complete hrec h hk rest
  | boolean => exact pBoolean_complete hrec h hk hr
  | booleanElse => exact pBoolean_else hrec h hk rest
  | define => exact pDefine_complete rec h rest

theorem pLine_complete {k : Nat} {rec : Located → Option (Lines × Located)} (hrec : LinesOk k rec)
    (l : Line) {ts : Located} (h : l.At ts) (hk : ts.length ≤ k) {rest : Located}
    (hr : HeadIs endsLine rest) :
    ∃ l', pLine rec (ts ++ rest) = some (l', rest) ∧ l'.plain = l.plain := by
  cases l with
  | bare s =>
    simp only [Line.At] at h
    have hc := pCommand_complete (c := []) (cmd := none) rfl hr
    simp only [List.nil_append] at hc
    obtain ⟨s', h1, h2⟩ := stmtStep_complete hrec s h hk hr.stmt
    exact ⟨.bare s', by simp [pLine, h1, hc], by simp only [Line.plain, h2]⟩
  | withCommand s c =>
    simp only [Line.At] at h
    obtain ⟨a, n, rfl, h⟩ := h
    simp only [List.length_append] at hk
    obtain ⟨s', h1, h2⟩ := stmtStep_complete hrec s h (by omega) (rest := (n, .command c) :: rest) (.cons rfl)
    exact ⟨.withCommand s' c, by simp [pLine, h1, pCommand], by simp only [Line.plain, h2]⟩

/-- The loop over the lines, up to the last of them. -/
theorem linesMore_complete {k : Nat} {line : Located → Option (Line × Located)}
    (hline : ∀ (l : Line) {ts : Located}, l.At ts → ts.length ≤ k → ∀ {rest : Located},
      HeadIs endsLine rest → ∃ l', line (ts ++ rest) = some (l', rest) ∧ l'.plain = l.plain) :
    ∀ (ls : Lines) {b : Located}, ls.At b → b.length ≤ k → ∀ {rest : Located}, HeadIs endsLine rest →
      ∃ K ls', rest.length ≤ K ∧ ls'.plain = ls.plain ∧
        ((line (b ++ rest)).bind fun x => linesMore line x.2.length (.one x.1) x.2) = linesMore line K ls' rest
  | .one l, b, h, hk, rest, hr => by
    simp only [Lines.At] at h
    obtain ⟨l', h1, h2⟩ := hline l h hk hr
    exact ⟨rest.length, .one l', Nat.le_refl _, by simp only [Lines.plain, h2], by simp [h1]⟩
  | .more ls l, b, h, hk, rest, hr => by
    simp only [Lines.At] at h
    obtain ⟨x, y, rfl, hx, hy⟩ := h
    simp only [List.length_append] at hk
    have hs : Starts y.toks := by rw [Line.at_toks l hy]; exact l.starts
    obtain ⟨K, ls', hK, hp, e⟩ := linesMore_complete hline ls hx (by omega) (rest := y ++ rest) hs.headIs
    obtain ⟨l', h1, h2⟩ := hline l hy (by omega) hr
    obtain ⟨n, t, r, _, _, hne⟩ := hs.located (b := rest)
    have hpos := List.length_pos_iff.2 hne
    simp only [List.length_append] at hK
    cases K with
    | zero => omega
    | succ K =>
      refine ⟨K, .more ls' l', by omega, by simp only [Lines.plain, h2, hp], ?_⟩
      rw [List.append_assoc, e]
      conv => lhs; unfold linesMore
      simp [hs.not_atEnd, h1]

theorem linesF_complete (k : Nat) : LinesOk k (linesF k) := by
  induction k with
  | zero => intro ls b rest h hk; omega
  | succ k ih =>
    intro ls b rest h hk hr
    obtain ⟨K, ls', hK, hp, e⟩ := linesMore_complete (k := k) (line := pLine (linesF k))
      (fun l _ h hk _ hr => pLine_complete ih l h hk hr) ls h (by omega) hr.line
    refine ⟨ls', ?_, hp⟩
    simp only [linesF, Option.bind_eq_bind]
    rw [e]
    unfold linesMore
    simp [hr.atEnd]

theorem pLines_complete (ls : Lines) {b rest : Located} (h : ls.At b) (hr : HeadIs endsBlock rest) :
    ∃ ls', pLines (b ++ rest) = some (ls', rest) ∧ ls'.plain = ls.plain :=
  linesF_complete _ ls b rest h (by simp; omega) hr

end Selint
