import Verif.Lemmas.SimpleParser
import Verif.Lemmas.Location
/-!
# What the parser returns is a derivation of the tokens it has read
-/

namespace Selint

theorem Located.toks_nil : Located.toks [] = [] := rfl

theorem Located.toks_cons (n : Nat) (t : Token) (r : Located) : Located.toks ((n, t) :: r) = t :: r.toks := rfl

theorem expect_sound {t : Token} {ts : Located} {x : Nat × Located} (h : expect t ts = some x) :
    ts = (x.1, t) :: x.2 := by
  cases ts with
  | nil => simp [expect] at h
  | cons u r =>
    simp only [expect] at h
    split at h
    · rename_i hu
      simp at h; subst h; subst hu; rfl
    · cases h

theorem lift_sound {α : Type} {p : TokParser α} {tokens : α → List Token}
    (hp : ∀ {ts x}, p ts = some x → ts = tokens x.1 ++ x.2) {ts : Located} {x : α × Located}
    (h : lift p ts = some x) : ∃ a : Located, ts = a ++ x.2 ∧ a.toks = tokens x.1 := by
  unfold lift at h
  simp only [Option.map_eq_some_iff] at h
  obtain ⟨y, hy, rfl⟩ := h
  have e := hp hy
  refine ⟨ts.take (ts.length - y.2.length), (List.take_append_drop _ _).symm, ?_⟩
  have hl : ts.length = (tokens y.1).length + y.2.length := by
    have := congrArg List.length e
    simpa [Located.toks] using this
  simp only [Located.toks, List.map_take] at e ⊢
  rw [e, hl]
  simp

theorem pCommand_sound (ts : Located) :
    ∃ a : Located, ts = a ++ (pCommand ts).2 ∧ a.toks = commandTokens (pCommand ts).1 := by
  unfold pCommand
  split
  · rename_i n c r
    exact ⟨[(n, .command c)], rfl, rfl⟩
  · exact ⟨[], rfl, rfl⟩

/-- Whatever the parser returns derives what it has read. -/
def Reads {α : Type} (At : α → Located → Prop) (p : Located → Option (α × Located)) : Prop :=
  ∀ {ts x}, p ts = some x → ∃ a : Located, ts = a ++ x.2 ∧ At x.1 a

/-! ## Require blocks -/

theorem pReqIf_sound {rec : Located → Option (ReqLines × Located)} (hrec : Reads ReqLines.At rec)
    {negated : Bool} {ts : Located} {x : ReqStmt × Located} (h : pReqIf rec negated ts = some x) (n : Nat) :
    ∃ a : Located, (n, ifKeyword negated) :: ts = a ++ x.2 ∧ x.1.At a := by
  unfold pReqIf at h
  simp only [Option.bind_eq_bind, Option.bind_eq_some_iff, Option.pure_def] at h
  obtain ⟨a, ha, b, hb, c, hc, d, hd, e, he, h⟩ := h
  obtain ⟨o, ho, ho'⟩ := lift_sound (tokens := fun s => [.string s]) (fun h => pStr_sound h) hc
  split at h
  · rename_i y hy
    simp only [Option.bind_eq_some_iff, Option.some.injEq] at h
    obtain ⟨f, hf, g, hg, k, hk, rfl⟩ := h
    obtain ⟨q, hq, hq'⟩ := hrec hf
    refine ⟨((n, ifKeyword negated) :: (a.1, tOpen) :: (b.1, tTick) :: o ++ [(d.1, tQuote), (e.1, tComma),
      (y.1, tTick)]) ++ q ++ [(g.1, tQuote), (k.1, tClose)], ?_, ?_⟩
    · rw [expect_sound ha, expect_sound hb, ho, expect_sound hd, expect_sound he, expect_sound hy, hq,
        expect_sound hg, expect_sound hk]
      simp
    · simp only [ReqStmt.At]
      refine ⟨_, _, _, rfl, ?_, ?_, hq', rfl⟩
      · simp [Located.toks_append, Located.toks_cons, Located.toks_nil, ho']
      · simp [Located.last, Located.lines, List.getLast?_cons]
  · simp only [Option.bind_eq_some_iff, Option.some.injEq] at h
    obtain ⟨f, hf, k, hk, rfl⟩ := h
    obtain ⟨q, hq, hq'⟩ := hrec hf
    refine ⟨((n, ifKeyword negated) :: (a.1, tOpen) :: (b.1, tTick) :: o ++ [(d.1, tQuote), (e.1, tComma)])
      ++ q ++ [(k.1, tClose)], ?_, ?_⟩
    · rw [expect_sound ha, expect_sound hb, ho, expect_sound hd, expect_sound he, hq, expect_sound hk]
      simp
    · simp only [ReqStmt.At]
      refine ⟨_, _, _, rfl, ?_, ?_, hq', rfl⟩
      · simp [Located.toks_append, Located.toks_cons, Located.toks_nil, ho']
      · simp [Located.last, Located.lines, List.getLast?_cons]

theorem reqStep_sound {rec : Located → Option (ReqLines × Located)} (hrec : Reads ReqLines.At rec) :
    Reads ReqStmt.At (reqStep rec) := by
  intro ts x h
  unfold reqStep at h
  split at h
  · rename_i n r
    simp at h; subst h
    exact ⟨[(n, .comment)], rfl, by simp [ReqStmt.At, Located.toks]⟩
  · exact pReqIf_sound hrec h _
  · exact pReqIf_sound hrec h _
  · rename_i line r
    simp only [Option.bind_eq_bind, Option.bind_eq_some_iff, Option.pure_def, Option.some.injEq] at h
    obtain ⟨n, hn, l, hl, z, hz, rfl⟩ := h
    obtain ⟨o, ho, ho'⟩ := lift_sound (tokens := fun s => [.string s]) (fun h => pStr_sound h) hn
    obtain ⟨q, hq, hq'⟩ := lift_sound pSList_sound hl
    refine ⟨(line, .kw .cls) :: (o ++ q ++ [(z.1, tSemi)]), by rw [ho, hq, expect_sound hz]; simp, ?_⟩
    simp [ReqStmt.At, Located.whole, Located.first, Located.lines, Located.toks_append, Located.toks_cons,
      Located.toks_nil, ho', hq']
  · rename_i line k r _ _ _
    split at h
    · cases h
    · rename_i fl hfl
      simp only [Option.bind_eq_bind, Option.bind_eq_some_iff, Option.pure_def, Option.some.injEq] at h
      obtain ⟨l, hl, z, hz, rfl⟩ := h
      obtain ⟨q, hq, hq'⟩ := lift_sound pCommaList_sound hl
      refine ⟨(line, .kw k) :: (q ++ [(z.1, tSemi)]), by rw [hq, expect_sound hz]; simp, ?_⟩
      simp [ReqStmt.At, Located.whole, Located.first, Located.lines, Located.toks_append, Located.toks_cons,
        Located.toks_nil, hq']
  · cases h

theorem pCommand_some {ts r : Located} {c : Str} (h : pCommand ts = (some c, r)) :
    ∃ n, ts = (n, .command c) :: r := by
  unfold pCommand at h
  split at h
  · simp at h; obtain ⟨rfl, rfl⟩ := h; exact ⟨_, rfl⟩
  · simp at h

theorem pCommand_none {ts r : Located} (h : pCommand ts = (none, r)) : ts = r := by
  unfold pCommand at h
  split at h
  · simp at h
  · simpa using h

theorem reqLine_sound {rec : Located → Option (ReqLines × Located)} (hrec : Reads ReqLines.At rec) :
    Reads ReqLine.At (reqLine rec) := by
  intro ts x h
  unfold reqLine at h
  simp only [Option.bind_eq_bind, Option.bind_eq_some_iff, Option.pure_def] at h
  obtain ⟨y, hy, h⟩ := h
  obtain ⟨a, ha, ha'⟩ := reqStep_sound hrec hy
  split at h
  · rename_i c r hc
    obtain ⟨n, hn⟩ := pCommand_some hc
    simp at h; subst h
    exact ⟨a ++ [(n, .command c)], by rw [ha, hn]; simp, by simp only [ReqLine.At]; exact ⟨a, n, rfl, ha'⟩⟩
  · rename_i r hc
    simp at h; subst h
    exact ⟨a, by rw [ha, pCommand_none hc], by simpa only [ReqLine.At] using ha'⟩

theorem reqMore_sound {line : Located → Option (ReqLine × Located)} (hl : Reads ReqLine.At line) {n : Nat}
    {acc : ReqLines} {ts : Located} {x : ReqLines × Located} (h : reqMore line n acc ts = some x)
    {b : Located} (hb : acc.At b) : ∃ a : Located, b ++ ts = a ++ x.2 ∧ x.1.At a := by
  induction n generalizing acc ts b with
  | zero =>
    unfold reqMore at h
    split at h
    · simp at h; subst h; exact ⟨b, rfl, hb⟩
    · cases h
  | succ n ih =>
    unfold reqMore at h
    split at h
    · simp at h; subst h; exact ⟨b, rfl, hb⟩
    · simp only [Option.bind_eq_bind, Option.bind_eq_some_iff] at h
      obtain ⟨y, hy, h⟩ := h
      obtain ⟨c, hc, hc'⟩ := hl hy
      have : (ReqLines.more acc y.1).At (b ++ c) := by
        simp only [ReqLines.At]; exact ⟨b, c, rfl, hb, hc'⟩
      obtain ⟨a, ha, ha'⟩ := ih h this
      exact ⟨a, by rw [← ha, hc]; simp, ha'⟩

theorem reqLinesF_sound (n : Nat) : Reads ReqLines.At (reqLinesF n) := by
  induction n with
  | zero => intro ts x h; simp [reqLinesF] at h
  | succ n ih =>
    intro ts x h
    simp only [reqLinesF, Option.bind_eq_bind, Option.bind_eq_some_iff] at h
    obtain ⟨y, hy, h⟩ := h
    obtain ⟨c, hc, hc'⟩ := reqLine_sound ih hy
    obtain ⟨a, ha, ha'⟩ := reqMore_sound (reqLine_sound ih) h (b := c) (by simpa only [ReqLines.At] using hc')
    exact ⟨a, by rw [hc, ha], ha'⟩

theorem pReqLines_sound : Reads ReqLines.At pReqLines := fun h => reqLinesF_sound _ h

/-! ## Lines -/

theorem pM4Argument_sound {rec : Located → Option (Lines × Located)} (hrec : Reads Lines.At rec) :
    Reads M4Argument.At (pM4Argument rec) := by
  intro ts x h
  unfold pM4Argument at h
  split at h
  · rename_i m n r
    simp at h; subst h
    exact ⟨[(m, tTick), (n, tQuote)], rfl, by simp [M4Argument.At, Located.toks]⟩
  · rename_i m r _
    simp only [Option.bind_eq_bind, Option.bind_eq_some_iff, Option.pure_def, Option.some.injEq] at h
    obtain ⟨y, hy, z, hz, rfl⟩ := h
    obtain ⟨b, hb, hb'⟩ := hrec hy
    refine ⟨(m, tTick) :: (b ++ [(z.1, tQuote)]), by rw [hb, expect_sound hz]; simp [tTick], ?_⟩
    simp only [M4Argument.At]
    exact ⟨m, z.1, b, rfl, hb'⟩
  · rename_i n s r
    simp at h; subst h
    exact ⟨[(n, .string s)], rfl, by simp [M4Argument.At, Located.toks]⟩
  · simp at h; subst h
    exact ⟨[], rfl, by simp [M4Argument.At]⟩

theorem m4More_sound {rec : Located → Option (Lines × Located)} (hrec : Reads Lines.At rec) {n : Nat}
    {acc : M4Args} {ts : Located} {x : M4Args × Located} (h : m4More rec n acc ts = some x)
    {prev : Nat} {b : Located} (hb : acc.At prev b) : ∃ a : Located, b ++ ts = a ++ x.2 ∧ x.1.At prev a := by
  induction n generalizing acc ts b with
  | zero =>
    unfold m4More at h
    split at h
    · simp at h; subst h; exact ⟨b, rfl, hb⟩
    · cases h
  | succ n ih =>
    unfold m4More at h
    split at h
    · simp at h; subst h; exact ⟨b, rfl, hb⟩
    · rename_i k hk
      simp only [Option.bind_eq_bind, Option.bind_eq_some_iff] at h
      obtain ⟨y, hy, h⟩ := h
      obtain ⟨c, hc, hc'⟩ := pM4Argument_sound hrec hy
      have : (M4Args.more acc k.1 y.1).At prev (b ++ (k.1, tComma) :: c) := by
        simp only [M4Args.At]; exact ⟨b, c, rfl, hb, hc'⟩
      obtain ⟨a, ha, ha'⟩ := ih h this
      exact ⟨a, by rw [← ha, expect_sound hk, hc]; simp, ha'⟩

/-- The arguments, then the closing parenthesis. -/
theorem pM4Args_sound {rec : Located → Option (Lines × Located)} (hrec : Reads Lines.At rec) {prev : Nat}
    {ts : Located} {x : M4Args × Located} (h : pM4Args rec prev ts = some x) :
    ∃ (a : Located) (n : Nat), ts = a ++ (n, tClose) :: x.2 ∧ x.1.At prev a := by
  unfold pM4Args at h
  simp only [Option.bind_eq_bind, Option.bind_eq_some_iff, Option.pure_def, Option.some.injEq] at h
  obtain ⟨y, hy, z, hz, w, hw, rfl⟩ := h
  obtain ⟨b, hb, hb'⟩ := pM4Argument_sound hrec hy
  obtain ⟨a, ha, ha'⟩ := m4More_sound hrec hz (prev := prev) (b := b)
    (by simp only [M4Args.At]; exact ⟨trivial, hb'⟩)
  exact ⟨a, w.1, by rw [hb, ha, expect_sound hw], ha'⟩

/-- Read after a keyword. -/
def ReadsAfter (k : Token) (n : Nat) (p : Located → Option (Stmt × Located)) : Prop :=
  ∀ {ts x}, p ts = some x → ∃ a : Located, (n, k) :: ts = a ++ x.2 ∧ x.1.At a

theorem pOptional_sound {rec : Located → Option (Lines × Located)} (hrec : Reads Lines.At rec) (line : Nat) :
    ReadsAfter (.kw .optionalPolicy) line (pOptional rec line) := by
  intro ts x h
  unfold pOptional at h
  simp only [Option.bind_eq_bind, Option.bind_eq_some_iff, Option.pure_def] at h
  obtain ⟨a, ha, b, hb, h⟩ := h
  obtain ⟨c, hc, hc'⟩ := pCommand_sound b.2
  generalize pCommand b.2 = cmd at hc hc' h
  have ho : Located.whole ((line, .kw .optionalPolicy) :: (a.1, tOpen) :: (b.1, tTick) :: c)
      ([.kw .optionalPolicy, tOpen, tTick] ++ commandTokens cmd.1) line := by
    simp [Located.whole, Located.first, Located.lines, Located.toks_cons, hc']
  split at h
  · rename_i y hy
    simp only [Option.bind_eq_some_iff, Option.some.injEq] at h
    obtain ⟨z, hz, rfl⟩ := h
    refine ⟨((line, .kw .optionalPolicy) :: (a.1, tOpen) :: (b.1, tTick) :: c) ++
      [(y.1, tQuote), (z.1, tClose)], ?_, ?_⟩
    · rw [expect_sound ha, expect_sound hb, hc, expect_sound hy, expect_sound hz]; simp
    · simp only [Stmt.At]; exact ⟨_, _, rfl, ho, rfl⟩
  · simp only [Option.bind_eq_some_iff] at h
    obtain ⟨d, hd, y, hy, h⟩ := h
    obtain ⟨q, hq, hq'⟩ := hrec hd
    split at h
    · rename_i z hz
      simp at h; subst h
      refine ⟨((line, .kw .optionalPolicy) :: (a.1, tOpen) :: (b.1, tTick) :: c) ++ q ++
        [(y.1, tQuote), (z.1, tClose)], ?_, ?_⟩
      · rw [expect_sound ha, expect_sound hb, hc, hq, expect_sound hy, expect_sound hz]; simp
      · simp only [Stmt.At]; exact ⟨_, _, _, rfl, ho, hq', rfl⟩
    · simp only [Option.bind_eq_some_iff, Option.some.injEq] at h
      obtain ⟨z, hz, w, hw, e, he, f, hf, g, hg, rfl⟩ := h
      obtain ⟨p, hp, hp'⟩ := hrec he
      refine ⟨((line, .kw .optionalPolicy) :: (a.1, tOpen) :: (b.1, tTick) :: c) ++ q ++
        [(y.1, tQuote), (z.1, tComma), (w.1, tTick)] ++ p ++ [(f.1, tQuote), (g.1, tClose)], ?_, ?_⟩
      · rw [expect_sound ha, expect_sound hb, hc, hq, expect_sound hy, expect_sound hz, expect_sound hw,
          hp, expect_sound hf, expect_sound hg]; simp
      · simp only [Stmt.At]; exact ⟨_, _, _, _, _, rfl, ho, hq', rfl, rfl, hp', rfl⟩

theorem pGenRequire_sound (line : Nat) : ReadsAfter (.kw .genRequire) line (pGenRequire line) := by
  intro ts x h
  unfold pGenRequire at h
  simp only [Option.bind_eq_bind, Option.bind_eq_some_iff, Option.pure_def] at h
  obtain ⟨a, ha, h⟩ := h
  obtain ⟨c, hc, hc'⟩ := pCommand_sound a.2
  generalize pCommand a.2 = cmd at hc hc' h
  have ho : Located.whole ((line, .kw .genRequire) :: (a.1, tOpen) :: c)
      ([.kw .genRequire, tOpen] ++ commandTokens cmd.1) line := by
    simp [Located.whole, Located.first, Located.lines, Located.toks_cons, hc']
  split at h
  · rename_i y hy
    simp only [Option.bind_eq_some_iff, Option.some.injEq] at h
    obtain ⟨d, hd, hd'⟩ := pCommand_sound y.2
    generalize pCommand y.2 = cmd' at hd hd' h
    obtain ⟨b, hb, z, hz, w, hw, rfl⟩ := h
    obtain ⟨q, hq, hq'⟩ := pReqLines_sound hb
    refine ⟨((line, .kw .genRequire) :: (a.1, tOpen) :: c) ++ ((y.1, tTick) :: d) ++ q ++
      [(z.1, tQuote), (w.1, tClose)], ?_, ?_⟩
    · rw [expect_sound ha, hc, expect_sound hy, hd, hq, expect_sound hz, expect_sound hw]; simp
    · simp only [Stmt.At]
      exact ⟨_, _, _, _, rfl, ho, by simp [Located.toks_cons, hd'], hq', rfl⟩
  · simp only [Option.bind_eq_some_iff, Option.some.injEq] at h
    obtain ⟨b, hb, w, hw, rfl⟩ := h
    obtain ⟨q, hq, hq'⟩ := pReqLines_sound hb
    refine ⟨((line, .kw .genRequire) :: (a.1, tOpen) :: c) ++ q ++ [(w.1, tClose)], ?_, ?_⟩
    · rw [expect_sound ha, hc, hq, expect_sound hw]; simp
    · simp only [Stmt.At]; exact ⟨_, _, _, rfl, ho, hq', rfl⟩

theorem pRequire_sound (n : Nat) : ReadsAfter (.kw .require) n pRequire := by
  intro ts x h
  unfold pRequire at h
  simp only [Option.bind_eq_bind, Option.bind_eq_some_iff, Option.pure_def] at h
  obtain ⟨a, ha, h⟩ := h
  split at h
  · rename_i line c r hr
    simp only [Option.bind_eq_some_iff, Option.some.injEq] at h
    obtain ⟨b, hb, w, hw, rfl⟩ := h
    obtain ⟨q, hq, hq'⟩ := pReqLines_sound hb
    refine ⟨[(n, .kw .require), (a.1, tLeft), (line, .command c)] ++ q ++ [(w.1, tRight)], ?_, ?_⟩
    · rw [expect_sound ha, hr, hq, expect_sound hw]; simp
    · simp only [Stmt.At]; exact ⟨_, _, _, rfl, rfl, rfl, hq', rfl⟩
  · simp only [Option.bind_eq_some_iff, Option.some.injEq] at h
    obtain ⟨b, hb, w, hw, rfl⟩ := h
    obtain ⟨q, hq, hq'⟩ := pReqLines_sound hb
    refine ⟨[(n, .kw .require), (a.1, tLeft)] ++ q ++ [(w.1, tRight)], ?_, ?_⟩
    · rw [expect_sound ha, hq, expect_sound hw]; simp
    · simp only [Stmt.At]; exact ⟨_, _, _, rfl, rfl, rfl, hq', rfl⟩

theorem pIfdef_sound {rec : Located → Option (Lines × Located)} (hrec : Reads Lines.At rec) (negated : Bool)
    (n : Nat) : ReadsAfter (ifKeyword negated) n (pIfdef rec negated) := by
  intro ts x h
  unfold pIfdef at h
  simp only [Option.bind_eq_bind, Option.bind_eq_some_iff, Option.pure_def, Option.some.injEq] at h
  obtain ⟨a, ha, b, hb, c, hc, d, hd, e, he, f, hf, rfl⟩ := h
  obtain ⟨o, ho, ho'⟩ := lift_sound (tokens := fun s => [.string s]) (fun h => pStr_sound h) hc
  obtain ⟨q, k, hq, hq'⟩ := pM4Args_sound hrec hf
  refine ⟨((n, ifKeyword negated) :: (a.1, tOpen) :: (b.1, tTick) :: o ++ [(d.1, tQuote), (e.1, tComma)])
    ++ q ++ [(k, tClose)], ?_, ?_⟩
  · rw [expect_sound ha, expect_sound hb, ho, expect_sound hd, expect_sound he, hq]; simp
  · simp only [Stmt.At]
    refine ⟨_, _, _, rfl, ?_, ?_, hq', rfl⟩
    · simp [Located.toks_append, Located.toks_cons, Located.toks_nil, ho']
    · simp [Located.last, Located.lines, List.getLast?_cons]

theorem pIfelse_sound {rec : Located → Option (Lines × Located)} (hrec : Reads Lines.At rec) (n : Nat) :
    ReadsAfter (.kw .ifelse) n (pIfelse rec) := by
  intro ts x h
  unfold pIfelse at h
  simp only [Option.bind_eq_bind, Option.bind_eq_some_iff, Option.pure_def, Option.some.injEq] at h
  obtain ⟨a, ha, f, hf, rfl⟩ := h
  obtain ⟨q, k, hq, hq'⟩ := pM4Args_sound hrec hf
  refine ⟨[(n, .kw .ifelse), (a.1, tOpen)] ++ q ++ [(k, tClose)], ?_, ?_⟩
  · rw [expect_sound ha, hq]; simp
  · simp only [Stmt.At]; exact ⟨_, _, _, rfl, rfl, rfl, hq', rfl⟩

theorem pUserdebug_sound {rec : Located → Option (Lines × Located)} (hrec : Reads Lines.At rec) (n : Nat) :
    ReadsAfter (.kw .userdebugOrEng) n (pUserdebug rec) := by
  intro ts x h
  unfold pUserdebug at h
  simp only [Option.bind_eq_bind, Option.bind_eq_some_iff, Option.pure_def, Option.some.injEq] at h
  obtain ⟨a, ha, b, hb, c, hc, d, hd, e, he, rfl⟩ := h
  obtain ⟨q, hq, hq'⟩ := hrec hc
  refine ⟨[(n, .kw .userdebugOrEng), (a.1, tOpen), (b.1, tTick)] ++ q ++ [(d.1, tQuote), (e.1, tClose)], ?_, ?_⟩
  · rw [expect_sound ha, expect_sound hb, hq, expect_sound hd, expect_sound he]; simp
  · simp only [Stmt.At]; exact ⟨_, _, _, rfl, rfl, hq', rfl⟩

theorem pTunable_sound {rec : Located → Option (Lines × Located)} (hrec : Reads Lines.At rec) (n : Nat) :
    ReadsAfter (.kw .tunablePolicy) n (pTunable rec) := by
  intro ts x h
  unfold pTunable at h
  simp only [Option.bind_eq_bind, Option.bind_eq_some_iff, Option.pure_def] at h
  obtain ⟨a, ha, h⟩ := h
  split at h
  · rename_i y hy
    simp only [Option.bind_eq_some_iff, Option.some.injEq] at h
    obtain ⟨c, hc, d, hd, e, he, f, hf, rfl⟩ := h
    obtain ⟨o, ho, ho'⟩ := lift_sound pCond_sound hc
    obtain ⟨q, k, hq, hq'⟩ := pM4Args_sound hrec hf
    refine ⟨[(n, .kw .tunablePolicy), (a.1, tOpen), (y.1, tTick)] ++ (o ++ [(d.1, tQuote), (e.1, tComma)]) ++
      q ++ [(k, tClose)], ?_, ?_⟩
    · rw [expect_sound ha, expect_sound hy, ho, expect_sound hd, expect_sound he, hq]; simp
    · simp only [Stmt.At]
      refine ⟨_, _, _, _, e.1, rfl, rfl, rfl, ?_, ?_, hq', rfl⟩
      · simp [Located.toks_append, Located.toks_cons, Located.toks_nil, ho']
      · simp [Located.last, Located.lines, List.getLast?_cons]
  · simp only [Option.bind_eq_some_iff, Option.some.injEq] at h
    obtain ⟨c, hc, e, he, f, hf, rfl⟩ := h
    obtain ⟨o, ho, ho'⟩ := lift_sound pCond_sound hc
    obtain ⟨q, k, hq, hq'⟩ := pM4Args_sound hrec hf
    refine ⟨[(n, .kw .tunablePolicy), (a.1, tOpen)] ++ (o ++ [(e.1, tComma)]) ++ q ++ [(k, tClose)], ?_, ?_⟩
    · rw [expect_sound ha, ho, expect_sound he, hq]; simp
    · simp only [Stmt.At]
      refine ⟨_, _, _, _, e.1, rfl, rfl, rfl, ?_, ?_, hq', rfl⟩
      · simp [Located.toks_append, Located.toks_cons, Located.toks_nil, ho']
      · simp [Located.last, Located.lines, List.getLast?_cons]

theorem pBoolean_sound {rec : Located → Option (Lines × Located)} (hrec : Reads Lines.At rec) (line : Nat) :
    ReadsAfter (.kw .kwIf) line (pBoolean rec line) := by
  intro ts x h
  unfold pBoolean at h
  simp only [Option.bind_eq_bind, Option.bind_eq_some_iff, Option.pure_def] at h
  obtain ⟨a, ha, h⟩ := h
  obtain ⟨c, hc, hc'⟩ := pCommand_sound a.2
  generalize pCommand a.2 = cmd at hc hc' h
  obtain ⟨d, hd, e, he, f, hf, b, hb, g, hg, h⟩ := h
  have ho : Located.whole ((line, .kw .kwIf) :: (a.1, tOpen) :: c)
      ([.kw .kwIf, tOpen] ++ commandTokens cmd.1) line := by
    simp [Located.whole, Located.first, Located.lines, Located.toks_cons, hc']
  obtain ⟨o, hoo, ho'⟩ := lift_sound pCond_sound hd
  obtain ⟨q, hq, hq'⟩ := hrec hb
  have hm : Located.toks (o ++ [(e.1, tClose), (f.1, tLeft)]) = d.1.tokens ++ [tClose, tLeft] := by
    simp [Located.toks_append, Located.toks_cons, Located.toks_nil, ho']
  split at h
  · simp at h; subst h
    refine ⟨((line, .kw .kwIf) :: (a.1, tOpen) :: c) ++ (o ++ [(e.1, tClose), (f.1, tLeft)]) ++ q ++
      [(g.1, tRight)], ?_, ?_⟩
    · rw [expect_sound ha, hc, hoo, expect_sound he, expect_sound hf, hq, expect_sound hg]; simp
    · simp only [Stmt.At]; exact ⟨_, _, _, _, rfl, ho, hm, hq', rfl⟩
  · rename_i y hy
    simp only [Option.bind_eq_some_iff, Option.some.injEq] at h
    obtain ⟨z, hz, w, hw, v, hv, rfl⟩ := h
    obtain ⟨p, hp, hp'⟩ := hrec hw
    refine ⟨((line, .kw .kwIf) :: (a.1, tOpen) :: c) ++ (o ++ [(e.1, tClose), (f.1, tLeft)]) ++ q ++
      [(g.1, tRight), (y.1, .kw .kwElse), (z.1, tLeft)] ++ p ++ [(v.1, tRight)], ?_, ?_⟩
    · rw [expect_sound ha, hc, hoo, expect_sound he, expect_sound hf, hq, expect_sound hg, expect_sound hy,
        expect_sound hz, hp, expect_sound hv]; simp
    · simp only [Stmt.At]; exact ⟨_, _, _, _, _, _, rfl, ho, hm, hq', rfl, hp', rfl⟩

theorem pDefineName_sound {ts : List Token} {x : (Bool × Str) × List Token} (h : pDefineName ts = some x) :
    ts = defineNameTokens x.1.1 x.1.2 ++ x.2 := by
  unfold pDefineName at h
  split at h <;> simp at h <;> subst h <;> rfl

theorem pDefineContent_sound {ts : List Token} {x : DefineContent × List Token}
    (h : pDefineContent ts = some x) : ts = x.1.tokens ++ x.2 := by
  unfold pDefineContent at h
  split at h
  · simp only [Option.bind_eq_bind, Option.bind_eq_some_iff, Option.pure_def, Option.some.injEq] at h
    obtain ⟨y, hy, z, hz, rfl⟩ := h
    simp [DefineContent.tokens, pM4String_sound hy, pTok_sound hz, tComma, tTick]
  · simp at h; subst h; rfl
  · simp at h; subst h; rfl
  · simp at h; subst h; rfl

theorem pDefine_sound (n : Nat) : ReadsAfter (.kw .define) n pDefine := by
  intro ts x h
  unfold pDefine at h
  simp only [Option.bind_eq_bind, Option.bind_eq_some_iff, Option.pure_def, Option.some.injEq] at h
  obtain ⟨a, ha, m, hm, c, hc, z, hz, rfl⟩ := h
  obtain ⟨o, ho, ho'⟩ := lift_sound (tokens := fun x : Bool × Str => defineNameTokens x.1 x.2)
    pDefineName_sound hm
  obtain ⟨q, hq, hq'⟩ := lift_sound pDefineContent_sound hc
  refine ⟨[(n, .kw .define), (a.1, tOpen)] ++ (o ++ q ++ [(z.1, tClose)]), ?_, ?_⟩
  · rw [expect_sound ha, ho, hq, expect_sound hz]; simp
  · simp only [Stmt.At]
    refine ⟨_, _, rfl, rfl, rfl, ?_⟩
    simp [Located.toks_append, Located.toks_cons, Located.toks_nil, ho', hq']

theorem Simple.tokens_ne (s : Simple) : s.tokens ≠ [] := by
  cases s with
  | decl d => cases d <;> simp [Simple.tokens, Decl.tokens]
  | _ => simp [Simple.tokens]

theorem pFlat_sound {line : Nat} {t : Token} {r : Located} {x : Stmt × Located}
    (h : pFlat line ((line, t) :: r) = some x) :
    ∃ a : Located, (line, t) :: r = a ++ x.2 ∧ x.1.At a := by
  unfold pFlat at h
  split at h
  · rename_i y hy
    simp at h; subst h
    obtain ⟨o, ho, ho'⟩ := lift_sound pSilent_sound hy
    exact ⟨o, ho, by simpa only [Stmt.At] using ho'⟩
  · simp only [Option.map_eq_some_iff] at h
    obtain ⟨y, hy, rfl⟩ := h
    obtain ⟨o, ho, ho'⟩ := lift_sound pSimple_sound hy
    refine ⟨o, ho, ?_⟩
    simp only [Stmt.At]
    refine ⟨ho', ?_⟩
    cases o with
    | nil => exact absurd ho'.symm (Simple.tokens_ne _)
    | cons u o => injection ho with h1 h2; subst h1; rfl

theorem stmtStep_sound {rec : Located → Option (Lines × Located)} (hrec : Reads Lines.At rec) :
    Reads Stmt.At (stmtStep rec) := by
  intro ts x h
  unfold stmtStep at h
  split at h
  · exact pOptional_sound hrec _ h
  · exact pGenRequire_sound _ h
  · exact pRequire_sound _ h
  · exact pIfdef_sound hrec false _ h
  · exact pIfdef_sound hrec true _ h
  · exact pIfelse_sound hrec _ h
  · exact pUserdebug_sound hrec _ h
  · exact pTunable_sound hrec _ h
  · exact pBoolean_sound hrec _ h
  · exact pDefine_sound _ h
  · exact pFlat_sound h
  · cases h

theorem pLine_sound {rec : Located → Option (Lines × Located)} (hrec : Reads Lines.At rec) :
    Reads Line.At (pLine rec) := by
  intro ts x h
  unfold pLine at h
  simp only [Option.bind_eq_bind, Option.bind_eq_some_iff, Option.pure_def] at h
  obtain ⟨y, hy, h⟩ := h
  obtain ⟨a, ha, ha'⟩ := stmtStep_sound hrec hy
  split at h
  · rename_i c r hc
    obtain ⟨n, hn⟩ := pCommand_some hc
    simp at h; subst h
    exact ⟨a ++ [(n, .command c)], by rw [ha, hn]; simp, by simp only [Line.At]; exact ⟨a, n, rfl, ha'⟩⟩
  · rename_i r hc
    simp at h; subst h
    exact ⟨a, by rw [ha, pCommand_none hc], by simpa only [Line.At] using ha'⟩

theorem linesMore_sound {line : Located → Option (Line × Located)} (hl : Reads Line.At line) {n : Nat}
    {acc : Lines} {ts : Located} {x : Lines × Located} (h : linesMore line n acc ts = some x)
    {b : Located} (hb : acc.At b) : ∃ a : Located, b ++ ts = a ++ x.2 ∧ x.1.At a := by
  induction n generalizing acc ts b with
  | zero =>
    unfold linesMore at h
    split at h
    · simp at h; subst h; exact ⟨b, rfl, hb⟩
    · cases h
  | succ n ih =>
    unfold linesMore at h
    split at h
    · simp at h; subst h; exact ⟨b, rfl, hb⟩
    · simp only [Option.bind_eq_bind, Option.bind_eq_some_iff] at h
      obtain ⟨y, hy, h⟩ := h
      obtain ⟨c, hc, hc'⟩ := hl hy
      have : (Lines.more acc y.1).At (b ++ c) := by
        simp only [Lines.At]; exact ⟨b, c, rfl, hb, hc'⟩
      obtain ⟨a, ha, ha'⟩ := ih h this
      exact ⟨a, by rw [← ha, hc]; simp, ha'⟩

theorem linesF_sound (n : Nat) : Reads Lines.At (linesF n) := by
  induction n with
  | zero => intro ts x h; simp [linesF] at h
  | succ n ih =>
    intro ts x h
    simp only [linesF, Option.bind_eq_bind, Option.bind_eq_some_iff] at h
    obtain ⟨y, hy, h⟩ := h
    obtain ⟨c, hc, hc'⟩ := pLine_sound ih hy
    obtain ⟨a, ha, ha'⟩ := linesMore_sound (pLine_sound ih) h (b := c) (by simpa only [Lines.At] using hc')
    exact ⟨a, by rw [hc, ha], ha'⟩

theorem pLines_sound : Reads Lines.At pLines := fun h => linesF_sound _ h

end Selint
