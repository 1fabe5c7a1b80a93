import Verif.Lemmas.BlockSound
/-!
# What the parser returns for a file is a derivation of its tokens
-/

namespace Selint

theorem pIfDef_sound {ts : Located} {x : IfDef × Located} (h : pIfDef ts = some x) :
    ∃ a : Located, ts = a ++ x.2 ∧ x.1.At a := by
  have key : ∃ (line : Nat) (tpl : Bool) (r : Located),
      ts = (line, .kw (if tpl then .template else .interface)) :: r ∧ pIfDefBody line tpl r = some x := by
    unfold pIfDef at h
    split at h
    · exact ⟨_, false, _, rfl, h⟩
    · exact ⟨_, true, _, rfl, h⟩
    · cases h
  clear h
  obtain ⟨line, tpl, r, rfl, h⟩ := key
  unfold pIfDefBody at h
  simp only [Option.bind_eq_bind, Option.bind_eq_some_iff, Option.pure_def] at h
  obtain ⟨a, ha, b, hb, n, hn, d, hd, e, he, f, hf, h⟩ := h
  obtain ⟨c, hc, hc'⟩ := pCommand_sound f.2
  generalize pCommand f.2 = cmd at hc hc' h
  obtain ⟨o, ho, ho'⟩ := lift_sound (tokens := fun s => [.string s]) (fun h => pStr_sound h) hn
  have hw : Located.whole ((line, .kw (if tpl then .template else .interface)) :: (a.1, tOpen) :: (b.1, tTick) ::
      (o ++ [(d.1, tQuote), (e.1, tComma), (f.1, tTick)]))
      [.kw (if tpl then .template else .interface), tOpen, tTick, .string n.1, tQuote, tComma, tTick] line := by
    simp [Located.whole, Located.first, Located.lines, Located.toks_cons, Located.toks_append, Located.toks_nil,
      ho']
  split at h
  · rename_i y hy
    simp only [Option.bind_eq_some_iff, Option.some.injEq] at h
    obtain ⟨z, hz, rfl⟩ := h
    refine ⟨((line, .kw (if tpl then .template else .interface)) :: (a.1, tOpen) :: (b.1, tTick) ::
      (o ++ [(d.1, tQuote), (e.1, tComma), (f.1, tTick)])) ++ c ++ [] ++ [(y.1, tQuote), (z.1, tClose)], ?_, ?_⟩
    · rw [expect_sound ha, expect_sound hb, ho, expect_sound hd, expect_sound he, expect_sound hf, hc,
        expect_sound hy, expect_sound hz]
      simp
    · exact ⟨_, _, _, _, rfl, hw, hc', rfl, rfl⟩
  · simp only [Option.bind_eq_some_iff, Option.some.injEq] at h
    obtain ⟨g, hg, y, hy, z, hz, rfl⟩ := h
    obtain ⟨q, hq, hq'⟩ := pLines_sound hg
    refine ⟨((line, .kw (if tpl then .template else .interface)) :: (a.1, tOpen) :: (b.1, tTick) ::
      (o ++ [(d.1, tQuote), (e.1, tComma), (f.1, tTick)])) ++ c ++ q ++ [(y.1, tQuote), (z.1, tClose)], ?_, ?_⟩
    · rw [expect_sound ha, expect_sound hb, ho, expect_sound hd, expect_sound he, expect_sound hf, hc, hq,
        expect_sound hy, expect_sound hz]
      simp
    · exact ⟨_, _, _, _, rfl, hw, hc', hq', rfl⟩

theorem pIfLines_sound {n : Nat} {ts : Located} {ls : List IfLine} (h : pIfLines n ts = some ls) :
    ifLinesAt ls ts := by
  induction n generalizing ts ls with
  | zero =>
    cases ts with
    | nil => simp [pIfLines] at h; subst h; rfl
    | cons t r => simp [pIfLines] at h
  | succ n ih =>
    unfold pIfLines at h
    split at h
    · simp at h; subst h; rfl
    · rename_i h1 h2; cases h1
    · rename_i line r h1; cases h1
      simp only [Option.bind_eq_bind, Option.bind_eq_some_iff, Option.pure_def, Option.some.injEq] at h
      obtain ⟨l, hl, rfl⟩ := h
      exact ⟨[(line, .comment)], r, rfl, rfl, ih hl⟩
    · rename_i h1 _ _; cases h1
      simp only [Option.bind_eq_bind, Option.bind_eq_some_iff, Option.pure_def, Option.some.injEq] at h
      obtain ⟨d, hd, l, hl, rfl⟩ := h
      obtain ⟨a, ha, ha'⟩ := pIfDef_sound hd
      exact ⟨a, d.2, ha, ha', ih hl⟩

/-- The tokens of a definition or a comment. -/
def defTokens {α : Type} (tokens : α → List Token) : Option α → List Token
  | none => [.comment]
  | some d => tokens d

theorem pOrComment_sound {α : Type} {p : TokParser α} {tokens : α → List Token}
    (hp : ∀ {ts x}, p ts = some x → ts = tokens x.1 ++ x.2) {ts : List Token} {x : Option α × List Token}
    (h : pOrComment p ts = some x) : ts = defTokens tokens x.1 ++ x.2 := by
  unfold pOrComment at h
  split at h
  · simp at h; subst h; rfl
  · simp only [Option.bind_eq_bind, Option.bind_eq_some_iff, Option.pure_def, Option.some.injEq] at h
    obtain ⟨d, hd, rfl⟩ := h
    exact hp hd

theorem pDefs_sound {α : Type} {p : TokParser α} {tokens : α → List Token}
    (hp : ∀ {ts x}, p ts = some x → ts = tokens x.1 ++ x.2) {ts : List Token} {x : α × List (Option α)}
    (h : pDefs p ts = some x) : ts = tokens x.1 ++ x.2.flatMap (defTokens tokens) := by
  unfold pDefs at h
  simp only [Option.bind_eq_bind, Option.bind_eq_some_iff] at h
  obtain ⟨d, hd, h⟩ := h
  have hs := pStar_sound (p := pOrComment p) (fun _ _ h => pOrComment_sound hp h) d.2
  generalize pStar (pOrComment p) d.2 = w at hs h
  split at h
  · rename_i hw
    simp at h; subst h
    rw [List.isEmpty_iff] at hw
    rw [hw, List.append_nil] at hs
    rw [hp hd, hs]
  · cases h

theorem leadingComments_sound (ts : Located) :
    ts = commentsAt (leadingComments ts).1 ++ (leadingComments ts).2 := by
  fun_induction leadingComments ts with
  | case1 line r ih => simpa [commentsAt] using ih
  | case2 r h => rfl

/-- A file that the parser accepts has the derivation it returns. -/
theorem pFile_sound {ts : Located} {f : SourceFile} (h : pFile ts = some f) : f.At ts := by
  unfold pFile at h
  have hc := leadingComments_sound ts
  generalize leadingComments ts = x at hc h
  obtain ⟨cs, r⟩ := x
  simp only at hc h
  subst hc
  split at h
  · split at h
    · simp at h; subst h; simp [SourceFile.At, commentsAt]
    · simp at h; subst h; simp [SourceFile.At]
  · rename_i line t r'
    split at h
    · simp only [Option.bind_eq_bind, Option.bind_eq_some_iff, Option.pure_def, Option.some.injEq] at h
      obtain ⟨d, hd, l, hl, rfl⟩ := h
      obtain ⟨a, ha, ha'⟩ := pIfDef_sound hd
      exact ⟨a, d.2, by rw [ha]; simp, ha', pIfLines_sound hl⟩
    · simp only [Option.bind_eq_bind, Option.bind_eq_some_iff, Option.pure_def, Option.some.injEq] at h
      obtain ⟨d, hd, l, hl, rfl⟩ := h
      obtain ⟨a, ha, ha'⟩ := pIfDef_sound hd
      exact ⟨a, d.2, by rw [ha]; simp, ha', pIfLines_sound hl⟩
    · simp only [Option.bind_eq_bind, Option.bind_eq_some_iff, Option.pure_def, Option.some.injEq] at h
      obtain ⟨d, hd, rfl⟩ := h
      refine ⟨_, rfl, (pDefs_sound pSptDef_sound hd).trans ?_⟩
      congr 2; funext a; cases a <;> rfl
    · simp only [Option.bind_eq_bind, Option.bind_eq_some_iff, Option.pure_def, Option.some.injEq] at h
      obtain ⟨d, hd, rfl⟩ := h
      refine ⟨_, rfl, (pDefs_sound pAvDef_sound hd).trans ?_⟩
      congr 2; funext a; cases a <;> rfl
    · simp only [Option.bind_eq_bind, Option.bind_eq_some_iff, Option.pure_def, Option.some.injEq] at h
      obtain ⟨d, hd, rfl⟩ := h
      refine ⟨_, rfl, (pDefs_sound pAvDef_sound hd).trans ?_⟩
      congr 2; funext a; cases a <;> rfl
    · simp only [Option.bind_eq_bind, Option.bind_eq_some_iff] at h
      obtain ⟨d, hd, b, hb, h⟩ := h
      obtain ⟨o, ho, ho'⟩ := lift_sound (tokens := fun x => (Header.mk line x.1 x.2.1 x.2.2.1 x.2.2.2).tokens)
        (fun h => pHeader_sound h line) hd
      obtain ⟨q, hq, hq'⟩ := pLines_sound hb
      split at h
      · rename_i hw
        rw [List.isEmpty_iff] at hw
        simp at h; subst h
        rw [hw, List.append_nil] at hq
        refine ⟨o, q, by rw [ho, hq]; simp, ⟨ho', ?_⟩, hq'⟩
        cases o with
        | nil =>
          exfalso
          have := congrArg List.length ho'
          simp only [Located.toks_nil, List.length_nil, Header.tokens] at this
          split at this <;> simp at this
        | cons u o => injection ho with h1 h2; subst h1; rfl
      · cases h

end Selint
