import Verif.Lemmas.BlockSound
import Verif.Spec.Derivation
/-!
# The parser finds a derivation if there is one
-/

namespace Selint

theorem toks_eq_nil {o : Located} : o.toks = [] ↔ o = [] := by simp [Located.toks]

theorem toks_eq_cons {o : Located} {t : Token} {l : List Token} :
    o.toks = t :: l ↔ ∃ n r, o = (n, t) :: r ∧ Located.toks r = l := by
  cases o with
  | nil => simp [Located.toks]
  | cons u o =>
    obtain ⟨n, v⟩ := u
    simp only [Located.toks_cons, List.cons.injEq, Prod.mk.injEq]
    constructor
    · rintro ⟨rfl, rfl⟩; exact ⟨n, o, ⟨⟨rfl, rfl⟩, rfl⟩, rfl⟩
    · rintro ⟨m, r, ⟨⟨_, rfl⟩, rfl⟩, rfl⟩; exact ⟨rfl, rfl⟩

theorem toks_eq_append {o : Located} {a b : List Token} :
    o.toks = a ++ b ↔ ∃ x y : Located, o = x ++ y ∧ x.toks = a ∧ y.toks = b := by
  simp only [Located.toks, List.map_eq_append_iff]

@[simp] theorem expect_cons (t : Token) (n : Nat) (r : Located) : expect t ((n, t) :: r) = some (n, r) := by
  simp [expect]

theorem expect_ne {t u : Token} (h : u ≠ t) (n : Nat) (r : Located) : expect t ((n, u) :: r) = none := by
  simp [expect, h]

theorem lift_complete {α : Type} {p : TokParser α} {a rest : Located} {x : α}
    (h : p (a.toks ++ rest.toks) = some (x, rest.toks)) : lift p (a ++ rest) = some (x, rest) := by
  simp only [lift, Located.toks_append, h, Option.map_some, Option.some.injEq, Prod.mk.injEq, true_and]
  simp [Located.toks]

@[simp] theorem lift_pStr (n : Nat) (s : Str) (r : Located) : lift pStr ((n, .string s) :: r) = some (s, r) :=
  lift_complete (a := [(n, .string s)]) (rest := r) rfl

/-- The next token, if any, is of this kind. -/
def HeadIs (f : Token → Bool) (ts : Located) : Prop := ∀ n t r, ts = (n, t) :: r → f t = true

/-- A statement can begin with it. -/
def startsStmt : Token → Bool
  | .kw k => k ≠ .kwElse
  | .string _ => true
  | .p .semicolon => true
  | .comment => true
  | _ => false

/-- A block can end before it. -/
def endsBlock : Token → Bool
  | .p .singleQuote => true
  | .p .closeCurly => true
  | .p .closeParen => true
  | _ => false

/-- A line can end before it. -/
def endsLine (t : Token) : Bool := startsStmt t || endsBlock t

/-- A statement can end before it. -/
def endsStmt : Token → Bool
  | .command _ => true
  | t => endsLine t

theorem HeadIs.mono {f g : Token → Bool} (h : ∀ t, f t = true → g t = true) {ts : Located}
    (hs : HeadIs f ts) : HeadIs g ts := fun n t r e => h t (hs n t r e)

theorem HeadIs.cons {f : Token → Bool} {n : Nat} {t : Token} {r : Located} (h : f t = true) :
    HeadIs f ((n, t) :: r) := by
  intro n' t' r' e
  cases e
  exact h

theorem HeadIs.stmt {ts : Located} (h : HeadIs endsLine ts) : HeadIs endsStmt ts :=
  h.mono fun t ht => by unfold endsStmt; split <;> simp_all

theorem HeadIs.line {ts : Located} (h : HeadIs endsBlock ts) : HeadIs endsLine ts :=
  h.mono fun t ht => by simp [endsLine, ht]

theorem HeadIs.notHead {l : List Token} {ts : Located} (h : HeadIs endsStmt ts)
    (hl : ∀ t ∈ l, endsStmt t = false) : NotHead l ts.toks := by
  cases ts with
  | nil => trivial
  | cons u r =>
    obtain ⟨n, t⟩ := u
    simp only [Located.toks_cons, NotHead]
    intro hm
    have := h n t r rfl
    rw [hl t hm] at this
    cases this

theorem HeadIs.atEnd {ts : Located} (h : HeadIs endsBlock ts) : atEnd ts = true := by
  cases ts with
  | nil => rfl
  | cons u r =>
    obtain ⟨n, t⟩ := u
    have := h n t r rfl
    unfold endsBlock at this
    split at this <;> simp_all [Selint.atEnd, peek, tQuote, tRight, tClose]

theorem pCommand_complete {c rest : Located} {cmd : Option Str} (h : c.toks = commandTokens cmd)
    (hr : HeadIs endsLine rest) : pCommand (c ++ rest) = (cmd, rest) := by
  cases cmd with
  | some s =>
    simp only [commandTokens, toks_eq_cons, toks_eq_nil] at h
    obtain ⟨n, _, rfl, rfl⟩ := h
    rfl
  | none =>
    simp only [commandTokens, toks_eq_nil] at h
    subst h
    simp only [List.nil_append]
    unfold pCommand
    split
    · rename_i n c r
      have := hr n _ r rfl
      simp [endsLine, startsStmt, endsBlock] at this
    · rfl

/-- Its tokens begin with the beginning of a statement. -/
def Starts (ts : List Token) : Prop := ∃ t r, ts = t :: r ∧ startsStmt t = true

theorem Starts.append {a b : List Token} (h : Starts a) : Starts (a ++ b) := by
  obtain ⟨t, r, rfl, ht⟩ := h
  exact ⟨t, r ++ b, rfl, ht⟩

theorem Starts.cons {t : Token} {r : List Token} (h : startsStmt t = true) : Starts (t :: r) := ⟨t, r, rfl, h⟩

theorem Starts.located {a b : Located} (h : Starts a.toks) :
    ∃ n t r, a ++ b = (n, t) :: r ∧ startsStmt t = true ∧ a ≠ [] := by
  obtain ⟨t, r, e, ht⟩ := h
  obtain ⟨n, r', rfl, _⟩ := toks_eq_cons.1 e
  exact ⟨n, t, r' ++ b, rfl, ht, by simp⟩

theorem Starts.headIs {a b : Located} (h : Starts a.toks) : HeadIs endsLine (a ++ b) := by
  obtain ⟨n, t, r, e, ht, _⟩ := h.located (b := b)
  rw [e]
  exact .cons (by simp [endsLine, ht])

theorem Starts.not_atEnd {a b : Located} (h : Starts a.toks) : atEnd (a ++ b) = false := by
  obtain ⟨n, t, r, e, ht, _⟩ := h.located (b := b)
  rw [e]
  unfold startsStmt at ht
  split at ht <;> simp_all [atEnd, peek, tQuote, tRight, tClose]

theorem Starts.expect_none {a b : Located} (h : Starts a.toks) {t : Token} (ht : startsStmt t = false) :
    expect t (a ++ b) = none := by
  obtain ⟨n, u, r, e, hu, _⟩ := h.located (b := b)
  rw [e]
  exact expect_ne (by rintro rfl; rw [hu] at ht; cases ht) _ _

theorem ReqStmt.starts (s : ReqStmt) : Starts s.tokens := by
  cases s with
  | decls line fl kw h l =>
    refine .cons ?_
    cases fl <;> simp only [requireKeyword, reduceCtorEq, Option.some.injEq] at h <;> subst h <;> rfl
  | cls => exact .cons rfl
  | ifdef line negated => exact .cons (by cases negated <;> rfl)
  | comment => exact .cons rfl

theorem ReqLine.starts (l : ReqLine) : Starts l.tokens := by
  cases l with
  | bare s => exact s.starts
  | withCommand s c => exact s.starts.append

theorem ReqLines.starts : ∀ (ls : ReqLines), Starts ls.tokens
  | .one l => by simpa only [ReqLines.tokens] using l.starts
  | .more ls l => by simpa only [ReqLines.tokens] using ls.starts.append

theorem Silent.starts (s : Silent) : Starts s.tokens := by
  cases s with
  | fsUse k h => exact .cons (by rcases h with rfl | rfl | rfl <;> rfl)
  | _ => exact .cons rfl

theorem Simple.starts (s : Simple) : Starts s.tokens := by
  cases s with
  | decl d => cases d <;> exact .cons rfl
  | rule fl => exact .cons (by cases fl <;> rfl)
  | xrule fl => exact .cons (by cases fl <;> rfl)
  | _ => exact .cons rfl

theorem Stmt.starts (s : Stmt) : Starts s.tokens := by
  cases s with
  | silent s => simpa only [Stmt.tokens] using s.starts
  | simple line s => simpa only [Stmt.tokens] using s.starts
  | ifdef line negated => exact .cons (by cases negated <;> rfl)
  | _ => exact .cons rfl

theorem Line.starts (l : Line) : Starts l.tokens := by
  cases l with
  | bare s => simpa only [Line.tokens] using s.starts
  | withCommand s c => simpa only [Line.tokens] using s.starts.append

theorem Lines.starts : ∀ (ls : Lines), Starts ls.tokens
  | .one l => by simpa only [Lines.tokens] using l.starts
  | .more ls l => by simpa only [Lines.tokens] using ls.starts.append

/-! ## Require blocks -/

/-- `rec` finds the lines of require blocks with less than `k` tokens. -/
def ReqOk (k : Nat) (rec : Located → Option (ReqLines × Located)) : Prop :=
  ∀ (ls : ReqLines) (b rest : Located), ls.At b → b.length < k → HeadIs endsBlock rest →
    rec (b ++ rest) = some (ls, rest)

theorem pReqIf_complete {k : Nat} {rec : Located → Option (ReqLines × Located)} (hrec : ReqOk k rec)
    {line : Nat} {negated quoted : Bool} {cond : Str} {body : ReqLines} {ts : Located}
    (h : (ReqStmt.ifdef line negated quoted cond body).At ts) (hk : ts.length ≤ k) (rest : Located) :
    ∃ n r, ts = (n, ifKeyword negated) :: r ∧
      pReqIf rec negated (r ++ rest) = some (.ifdef line negated quoted cond body, rest) := by
  simp only [ReqStmt.At] at h
  obtain ⟨o, b, c, rfl, ho, hl, hb, hc⟩ := h
  have hs : Starts b.toks := by rw [ReqLines.at_toks body hb]; exact body.starts
  cases quoted with
  | true =>
    simp only [if_true, List.cons_append, List.nil_append, toks_eq_cons, toks_eq_nil] at ho hc
    obtain ⟨n1, _, rfl, n2, _, rfl, n3, _, rfl, n4, _, rfl, n5, _, rfl, n6, _, rfl, n7, _, rfl, rfl⟩ := ho
    obtain ⟨m1, _, rfl, m2, _, rfl, rfl⟩ := hc
    simp [Located.last, Located.lines] at hl
    subst hl
    simp at hk
    have := hrec body b ((m1, tQuote) :: (m2, tClose) :: rest) hb (by omega) (.cons rfl)
    refine ⟨_, _, rfl, ?_⟩
    simp [pReqIf, this]
  | false =>
    simp only [Bool.false_eq_true, if_false, List.append_nil, List.nil_append, toks_eq_cons,
      toks_eq_nil] at ho hc
    obtain ⟨n1, _, rfl, n2, _, rfl, n3, _, rfl, n4, _, rfl, n5, _, rfl, n6, _, rfl, rfl⟩ := ho
    obtain ⟨m2, _, rfl, rfl⟩ := hc
    simp [Located.last, Located.lines] at hl
    subst hl
    simp at hk
    have := hrec body b ((m2, tClose) :: rest) hb (by omega) (.cons rfl)
    have he := hs.expect_none (b := (m2, tClose) :: rest) (t := tTick) rfl
    refine ⟨_, _, rfl, ?_⟩
    simp [pReqIf, this, he]

theorem reqFlavor_complete {fl : DeclFlavor} {kw : Keyword} (h : requireKeyword fl = some kw) :
    reqFlavor kw = some fl := by
  cases fl <;> simp only [requireKeyword, reduceCtorEq, Option.some.injEq] at h <;> subst h <;> rfl

theorem reqStep_decls (rec : Located → Option (ReqLines × Located)) {fl : DeclFlavor} {kw : Keyword}
    (h : requireKeyword fl = some kw) (line : Nat) (r : Located) :
    reqStep rec ((line, .kw kw) :: r) = (lift pCommaList r).bind fun l =>
      (expect tSemi l.2).bind fun x => some (.decls line fl kw h l.1, x.2) := by
  cases fl <;> simp only [requireKeyword, reduceCtorEq, Option.some.injEq] at h <;> subst h <;> rfl

theorem reqStep_complete {k : Nat} {rec : Located → Option (ReqLines × Located)} (hrec : ReqOk k rec)
    (s : ReqStmt) {ts : Located} (h : s.At ts) (hk : ts.length ≤ k) (rest : Located) :
    reqStep rec (ts ++ rest) = some (s, rest) := by
  cases s with
  | comment =>
    simp only [ReqStmt.At, toks_eq_cons, toks_eq_nil] at h
    obtain ⟨n, _, rfl, rfl⟩ := h
    rfl
  | ifdef line negated quoted cond body =>
    obtain ⟨n, r, rfl, h'⟩ := pReqIf_complete hrec h hk rest
    cases negated <;> exact h'
  | cls line n l =>
    simp only [ReqStmt.At, Located.whole, toks_eq_cons, toks_eq_append, toks_eq_nil] at h
    obtain ⟨⟨n1, _, rfl, n2, _, rfl, a, b, rfl, ha, n3, _, rfl, rfl⟩, hf⟩ := h
    simp [Located.first, Located.lines] at hf
    subst hf
    have := lift_complete (p := pSList) (a := a) (rest := (n3, tSemi) :: rest) (x := l) (by rw [ha]; simp)
    simp [reqStep, this]
  | decls line fl kw hkw l =>
    simp only [ReqStmt.At, Located.whole, toks_eq_cons, toks_eq_append, toks_eq_nil] at h
    obtain ⟨⟨n1, _, rfl, a, b, rfl, ha, n3, _, rfl, rfl⟩, hf⟩ := h
    simp [Located.first, Located.lines] at hf
    subst hf
    have := lift_complete (p := pCommaList) (a := a) (rest := (n3, tSemi) :: rest) (x := l)
      (by rw [ha]; simp [Located.toks_cons])
    simp [reqStep_decls rec hkw, this]

theorem reqLine_complete {k : Nat} {rec : Located → Option (ReqLines × Located)} (hrec : ReqOk k rec)
    (l : ReqLine) {ts : Located} (h : l.At ts) (hk : ts.length ≤ k) {rest : Located}
    (hr : HeadIs endsLine rest) : reqLine rec (ts ++ rest) = some (l, rest) := by
  cases l with
  | bare s =>
    simp only [ReqLine.At] at h
    have hc := pCommand_complete (c := []) (cmd := none) rfl hr
    simp only [List.nil_append] at hc
    simp [reqLine, reqStep_complete hrec s h hk, hc]
  | withCommand s c =>
    simp only [ReqLine.At] at h
    obtain ⟨a, n, rfl, h⟩ := h
    simp only [List.length_append] at hk
    have := reqStep_complete hrec s h (by omega) ((n, .command c) :: rest)
    simp [reqLine, this, pCommand]

/-- The loop over the lines, up to the last of them. -/
theorem reqMore_complete {k : Nat} {line : Located → Option (ReqLine × Located)}
    (hline : ∀ (l : ReqLine) {ts : Located}, l.At ts → ts.length ≤ k → ∀ {rest : Located},
      HeadIs endsLine rest → line (ts ++ rest) = some (l, rest)) :
    ∀ (ls : ReqLines) {b : Located}, ls.At b → b.length ≤ k → ∀ {rest : Located}, HeadIs endsLine rest →
      ∃ K, rest.length ≤ K ∧
        ((line (b ++ rest)).bind fun x => reqMore line x.2.length (.one x.1) x.2) = reqMore line K ls rest
  | .one l, b, h, hk, rest, hr => by
    simp only [ReqLines.At] at h
    exact ⟨rest.length, Nat.le_refl _, by simp [hline l h hk hr]⟩
  | .more ls l, b, h, hk, rest, hr => by
    simp only [ReqLines.At] at h
    obtain ⟨x, y, rfl, hx, hy⟩ := h
    simp only [List.length_append] at hk
    have hs : Starts y.toks := by rw [ReqLine.at_toks l hy]; exact l.starts
    obtain ⟨K, hK, e⟩ := reqMore_complete hline ls hx (by omega) (rest := y ++ rest) hs.headIs
    obtain ⟨n, t, r, _, _, hne⟩ := hs.located (b := rest)
    have hpos := List.length_pos_iff.2 hne
    simp only [List.length_append] at hK
    cases K with
    | zero => omega
    | succ K =>
      refine ⟨K, by omega, ?_⟩
      rw [List.append_assoc, e]
      conv => lhs; unfold reqMore
      simp [hs.not_atEnd, hline l hy (by omega) hr]

theorem reqLinesF_complete (k : Nat) : ReqOk k (reqLinesF k) := by
  induction k with
  | zero => intro ls b rest h hk; omega
  | succ k ih =>
    intro ls b rest h hk hr
    obtain ⟨K, hK, e⟩ := reqMore_complete (k := k) (line := reqLine (reqLinesF k))
      (fun l _ h hk _ hr => reqLine_complete ih l h hk hr) ls h (by omega) hr.line
    simp only [reqLinesF, Option.bind_eq_bind]
    rw [e]
    unfold reqMore
    simp [hr.atEnd]

theorem pReqLines_complete (ls : ReqLines) {b rest : Located} (h : ls.At b) (hr : HeadIs endsBlock rest) :
    pReqLines (b ++ rest) = some (ls, rest) :=
  reqLinesF_complete _ ls b rest h (by simp; omega) hr

end Selint
