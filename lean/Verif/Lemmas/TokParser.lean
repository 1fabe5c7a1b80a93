import Verif.Model.Parser
/-!
# The parsers on tokens read what they return, and find what there is
-/

namespace Selint

theorem pTok_sound {t : Token} {ts r : List Token} (h : pTok t ts = some r) : ts = t :: r := by
  cases ts with
  | nil => simp [pTok] at h
  | cons u r' =>
    simp only [pTok] at h
    split at h
    · rename_i hu
      injection h with h
      rw [hu, h]
    · cases h

@[simp] theorem pTok_cons (t : Token) (r : List Token) : pTok t (t :: r) = some r := by simp [pTok]

theorem pStr_sound {ts : List Token} {x : Str × List Token} (h : pStr ts = some x) :
    ts = .string x.1 :: x.2 := by
  unfold pStr at h
  split at h
  · injection h with h; subst h; rfl
  · cases h

@[simp] theorem pStr_cons (s : Str) (r : List Token) : pStr (.string s :: r) = some (s, r) := rfl

theorem pMany_sound {α : Type} {p : TokParser α} {tokens : α → List Token}
    (hp : ∀ ts x, p ts = some x → ts = tokens x.1 ++ x.2) (n : Nat) (ts : List Token) :
    ts = (pMany p n ts).1.flatMap tokens ++ (pMany p n ts).2 := by
  induction n generalizing ts with
  | zero => simp [pMany]
  | succ n ih =>
    simp only [pMany]
    split
    · simp
    · rename_i a r h
      have h1 := hp ts _ h
      have h2 := ih r
      simp only [List.flatMap_cons, List.append_assoc]
      rw [← h2]
      exact h1

theorem pStar_sound {α : Type} {p : TokParser α} {tokens : α → List Token}
    (hp : ∀ ts x, p ts = some x → ts = tokens x.1 ++ x.2) (ts : List Token) :
    ts = (pStar p ts).1.flatMap tokens ++ (pStar p ts).2 := pMany_sound hp _ ts

theorem pMany_complete {α : Type} {p : TokParser α} {tokens : α → List Token}
    (hp : ∀ a r, p (tokens a ++ r) = some (a, r)) {r : List Token} (hr : p r = none) (l : List α)
    (n : Nat) (hn : l.length ≤ n) : pMany p n (l.flatMap tokens ++ r) = (l, r) := by
  induction l generalizing n with
  | nil =>
    cases n with
    | zero => rfl
    | succ n => simp [pMany, hr]
  | cons a l ih =>
    cases n with
    | zero => simp at hn
    | succ n =>
      simp only [List.length_cons] at hn
      simp only [pMany, List.flatMap_cons, List.append_assoc, hp, ih n (by omega)]

theorem pStar_complete {α : Type} {p : TokParser α} {tokens : α → List Token}
    (hp : ∀ a r, p (tokens a ++ r) = some (a, r)) (hne : ∀ a, tokens a ≠ []) {r : List Token}
    (hr : p r = none) (l : List α) : pStar p (l.flatMap tokens ++ r) = (l, r) := by
  apply pMany_complete hp hr
  induction l with
  | nil => simp
  | cons a l ih =>
    have := List.length_pos_iff.2 (hne a)
    simp only [List.flatMap_cons, List.length_append, List.length_cons] at ih ⊢
    omega

theorem pSlItem_sound {ts : List Token} {x : SlItem × List Token} (h : pSlItem ts = some x) :
    ts = x.1.tokens ++ x.2 := by
  unfold pSlItem at h
  split at h <;> simp at h <;> subst h <;> rfl

@[simp] theorem pSlItem_complete (a : SlItem) (r : List Token) :
    pSlItem (a.tokens ++ r) = some (a, r) := by cases a <;> rfl

theorem SlItem.tokens_ne (a : SlItem) : a.tokens ≠ [] := by cases a <;> simp [SlItem.tokens]

theorem pStar_slItem_sound (ts : List Token) :
    ts = (pStar pSlItem ts).1.flatMap SlItem.tokens ++ (pStar pSlItem ts).2 :=
  pStar_sound (fun _ _ h => pSlItem_sound h) ts

theorem pStar_slItem (l : List SlItem) {r : List Token} (h : pSlItem r = none) :
    pStar pSlItem (l.flatMap SlItem.tokens ++ r) = (l, r) :=
  pStar_complete pSlItem_complete SlItem.tokens_ne h l

theorem pSList_sound {ts : List Token} {x : SList × List Token} (h : pSList ts = some x) :
    ts = x.1.tokens ++ x.2 := by
  fun_induction pSList ts generalizing x with
  | _ =>
    try simp only [Option.bind_eq_bind, Option.bind_eq_some_iff, Option.pure_def] at h
    grind [SList.tokens, → pSlItem_sound, pStar_slItem_sound, → pTok_sound, SlItem.tokens, tLeft]

@[simp] theorem pSList_complete (a : SList) (r : List Token) : pSList (a.tokens ++ r) = some (a, r) := by
  induction a with
  | braces a l =>
    simp only [SList.tokens, List.cons_append, List.append_assoc, tLeft, pSList, pSlItem_complete,
      Option.bind_eq_bind, Option.bind_some]
    rw [pStar_slItem l (by rfl)]
    simp
  | tilda l ih => simp [SList.tokens, pSList, ih]
  | item i => cases i <;> rfl
  | star => rfl

theorem pXItem_sound {ts : List Token} {x : XItem × List Token} (h : pXItem ts = some x) :
    ts = x.1.tokens ++ x.2 := by
  unfold pXItem at h
  split at h <;> simp at h <;> subst h <;> rfl

@[simp] theorem pXItem_complete (a : XItem) (r : List Token) :
    pXItem (a.tokens ++ r) = some (a, r) := by cases a <;> rfl

theorem XItem.tokens_ne (a : XItem) : a.tokens ≠ [] := by cases a <;> simp [XItem.tokens]

theorem pStar_xItem_sound (ts : List Token) :
    ts = (pStar pXItem ts).1.flatMap XItem.tokens ++ (pStar pXItem ts).2 :=
  pStar_sound (fun _ _ h => pXItem_sound h) ts

theorem pStar_xItem (l : List XItem) {r : List Token} (h : pXItem r = none) :
    pStar pXItem (l.flatMap XItem.tokens ++ r) = (l, r) :=
  pStar_complete pXItem_complete XItem.tokens_ne h l

theorem pXList_sound {ts : List Token} {x : XList × List Token} (h : pXList ts = some x) :
    ts = x.1.tokens ++ x.2 := by
  fun_induction pXList ts generalizing x with
  | _ =>
    try simp only [Option.bind_eq_bind, Option.bind_eq_some_iff, Option.pure_def] at h
    grind [XList.tokens, → pXItem_sound, pStar_xItem_sound, → pTok_sound, XItem.tokens, tLeft]

@[simp] theorem pXList_complete (a : XList) (r : List Token) : pXList (a.tokens ++ r) = some (a, r) := by
  induction a with
  | braces a l =>
    simp only [XList.tokens, List.cons_append, List.append_assoc, tLeft, pXList, pXItem_complete,
      Option.bind_eq_bind, Option.bind_some]
    rw [pStar_xItem l (by rfl)]
    simp
  | tilda l ih => simp [XList.tokens, pXList, ih]
  | item i => cases i <;> rfl

theorem pCommaStr_sound {ts : List Token} {x : Str × List Token} (h : pCommaStr ts = some x) :
    ts = [tComma, .string x.1] ++ x.2 := by
  unfold pCommaStr at h
  split at h <;> simp at h <;> subst h <;> rfl

theorem pCommaList_sound {ts : List Token} {x : CommaList × List Token} (h : pCommaList ts = some x) :
    ts = x.1.tokens ++ x.2 := by
  unfold pCommaList at h
  simp only [Option.bind_eq_bind, Option.bind_eq_some_iff, Option.pure_def, Option.some.injEq] at h
  obtain ⟨a, ha, rfl⟩ := h
  have h1 := pStr_sound ha
  have h2 := pStar_sound (p := pCommaStr) (tokens := fun s => [tComma, .string s])
    (fun _ _ h => pCommaStr_sound h) a.2
  simp only [CommaList.tokens, List.cons_append]
  rw [← h2]
  exact h1

@[simp] theorem pCommaList_complete (a : CommaList) (r : List Token) :
    pCommaList (a.tokens ++ tSemi :: r) = some (a, tSemi :: r) := by
  simp only [pCommaList, CommaList.tokens, List.cons_append, pStr_cons, Option.bind_eq_bind,
    Option.bind_some]
  rw [pStar_complete (p := pCommaStr) (tokens := fun s => [tComma, .string s]) (fun _ _ => rfl) (by simp)
    (by rfl)]
  rfl

theorem pArg_sound {ts : List Token} {x : Arg × List Token} (h : pArg ts = some x) :
    ts = x.1.tokens ++ x.2 := by
  fun_cases pArg ts with
  | _ =>
    simp only [pArg, Option.bind_eq_bind, Option.bind_eq_some_iff, Option.pure_def] at h
    grind [Arg.tokens, → pSlItem_sound, pStar_slItem_sound, → pTok_sound, → pXList_sound, tTick, tQuote]

theorem pArg_xList {ts : List Token} (l : XList) (r : List Token) (h : ts = l.tokens ++ r) :
    pArg ts = (pXList ts).bind fun x => some (.xperm x.1, x.2) := by
  subst h
  cases l with
  | braces a l => simp [XList.tokens, tLeft, pArg]
  | tilda l => simp [XList.tokens, pArg]
  | item i => cases i <;> simp [XList.tokens, XItem.tokens, pArg]

theorem pArg_words (ts : List Token) (h : ∀ r, ts ≠ .p .singleQuote :: r) :
    pArg (.p .backtick :: ts) = (pSlItem ts).bind fun x =>
      (pTok tQuote (pStar pSlItem x.2).2).bind fun r => some (.words x.1 (pStar pSlItem x.2).1, r) := by
  unfold pArg
  split
  · simp_all
  · rename_i h1; simp only [List.cons.injEq, true_and] at h1; exact absurd h1 (h _)
  · rename_i h1; simp only [List.cons.injEq, true_and] at h1; subst h1; rfl
  · rename_i h1; exact absurd rfl (h1 ts)

@[simp] theorem pArg_complete (a : Arg) (r : List Token) : pArg (a.tokens ++ r) = some (a, r) := by
  cases a with
  | xperm l => rw [Arg.tokens, pArg_xList l r rfl]; simp
  | quoted s => rfl
  | words a l =>
    simp only [Arg.tokens, List.cons_append, List.append_assoc, tTick]
    rw [pArg_words _ (by cases a <;> simp [SlItem.tokens])]
    simp only [pSlItem_complete, Option.bind_some]
    rw [pStar_slItem l (by rfl)]
    simp
  | empty => rfl

theorem Arg.tokens_ne (a : Arg) : a.tokens ≠ [] := by
  cases a with
  | xperm l => cases l <;> simp [Arg.tokens, XList.tokens, XItem.tokens_ne]
  | quoted s => simp [Arg.tokens]
  | words a l => simp [Arg.tokens]
  | empty => simp [Arg.tokens]

theorem pArgCont_sound {ts : List Token} {x : ArgCont × List Token} (h : pArgCont ts = some x) :
    ts = x.1.tokens ++ x.2 := by
  fun_cases pArgCont ts with
  | _ =>
    simp only [pArgCont, Option.bind_eq_bind, Option.bind_eq_some_iff, Option.pure_def] at h
    grind [ArgCont.tokens, → pSlItem_sound, → pArg_sound, tComma]

theorem pArgCont_complete (a : ArgCont) (r : List Token) : pArgCont (a.tokens ++ r) = some (a, r) := by
  cases a with
  | comma a => simp [ArgCont.tokens, tComma, pArgCont]
  | space i => cases i <;> rfl

theorem pArgs_sound {ts : List Token} {x : Args × List Token} (h : pArgs ts = some x) :
    ts = x.1.tokens ++ x.2 := by
  unfold pArgs at h
  simp only [Option.bind_eq_bind, Option.bind_eq_some_iff, Option.pure_def, Option.some.injEq] at h
  obtain ⟨a, ha, rfl⟩ := h
  have h1 := pArg_sound ha
  have h2 := pStar_sound (p := pArgCont) (tokens := ArgCont.tokens) (fun _ _ h => pArgCont_sound h) a.2
  simp only [Args.tokens, List.append_assoc]
  rw [← h2]
  exact h1

@[simp] theorem pArgs_complete (a : Args) (r : List Token) :
    pArgs (a.tokens ++ tClose :: r) = some (a, tClose :: r) := by
  simp only [pArgs, Args.tokens, List.append_assoc, pArg_complete, Option.bind_eq_bind, Option.bind_some]
  rw [pStar_complete (p := pArgCont) (tokens := ArgCont.tokens) pArgCont_complete
    (by intro a; cases a <;> simp [ArgCont.tokens, SlItem.tokens_ne]) (by rfl)]
  rfl

/-! ## Ranges and contexts -/

/-- The next token is none of these. -/
def NotHead (l : List Token) : List Token → Prop
  | [] => True
  | t :: _ => t ∉ l

theorem pMlsComponent_sound {ts : List Token} {x : MlsComponent × List Token}
    (h : pMlsComponent ts = some x) : ts = x.1.tokens ++ x.2 := by
  unfold pMlsComponent at h
  split at h <;> simp at h <;> subst h <;> rfl

theorem pMlsComponent_complete (a : MlsComponent) (r : List Token) (h : NotHead [.p .period] r) :
    pMlsComponent (a.tokens ++ r) = some (a, r) := by
  cases a with
  | one s =>
    simp only [MlsComponent.tokens, List.cons_append, List.nil_append]
    unfold pMlsComponent
    split
    · simp_all [NotHead]
    · simp_all
    · simp_all
  | dotted s t => rfl

theorem pMlsLevel_sound {ts : List Token} {x : MlsLevel × List Token}
    (h : pMlsLevel ts = some x) : ts = x.1.tokens ++ x.2 := by
  unfold pMlsLevel at h
  simp only [Option.bind_eq_bind, Option.bind_eq_some_iff, Option.pure_def] at h
  grind [Option.bind_eq_some_iff, MlsLevel.tokens, → pMlsComponent_sound, tColon]

theorem pMlsLevel_complete (a : MlsLevel) (r : List Token) (h : NotHead [.p .period, tColon] r) :
    pMlsLevel (a.tokens ++ r) = some (a, r) := by
  have h1 : NotHead [.p .period] r := by cases r <;> simp_all [NotHead]
  cases a with
  | one c =>
    simp only [pMlsLevel, MlsLevel.tokens, pMlsComponent_complete c r h1, Option.bind_eq_bind,
      Option.bind_some]
    split
    · simp_all [NotHead, tColon]
    · rfl
  | pair c d =>
    simp only [pMlsLevel, MlsLevel.tokens, List.append_assoc, List.cons_append]
    rw [pMlsComponent_complete c _ (by simp [NotHead, tColon])]
    simp [tColon, pMlsComponent_complete d r h1]

theorem pMlsRange_sound {ts : List Token} {x : MlsRange × List Token}
    (h : pMlsRange ts = some x) : ts = x.1.tokens ++ x.2 := by
  unfold pMlsRange at h
  simp only [Option.bind_eq_bind, Option.bind_eq_some_iff, Option.pure_def] at h
  grind [Option.bind_eq_some_iff, MlsRange.tokens, → pMlsLevel_sound]

theorem pMlsRange_complete (a : MlsRange) (r : List Token) (h : NotHead [.p .period, tColon, .p .dash] r) :
    pMlsRange (a.tokens ++ r) = some (a, r) := by
  have h1 : NotHead [.p .period, tColon] r := by cases r <;> simp_all [NotHead]
  cases a with
  | one c =>
    simp only [pMlsRange, MlsRange.tokens, pMlsLevel_complete c r h1, Option.bind_eq_bind,
      Option.bind_some]
    split
    · simp_all [NotHead]
    · rfl
  | range c d =>
    simp only [pMlsRange, MlsRange.tokens, List.append_assoc, List.cons_append]
    rw [pMlsLevel_complete c _ (by simp [NotHead, tColon])]
    simp [pMlsLevel_complete d r h1]

/-- What may not follow a context. -/
abbrev afterContext : List Token := [.p .period, tColon, .p .dash]

theorem pRawContext_sound {ts : List Token} {x : RawContext × List Token}
    (h : pRawContext ts = some x) : ts = x.1.tokens ++ x.2 := by
  unfold pRawContext at h
  split at h
  · simp only [Option.bind_eq_bind, Option.bind_eq_some_iff, Option.pure_def, Option.some.injEq] at h
    obtain ⟨a, ha, rfl⟩ := h
    simp [RawContext.tokens, tColon, pMlsRange_sound ha]
  · simp at h; subst h; rfl
  · cases h

theorem pRawContext_complete (a : RawContext) (r : List Token) (h : NotHead afterContext r) :
    pRawContext (a.tokens ++ r) = some (a, r) := by
  obtain ⟨u, ro, t, m⟩ := a
  cases m with
  | some m => simp [RawContext.tokens, tColon, pRawContext, pMlsRange_complete m r h]
  | none =>
    simp only [RawContext.tokens, List.append_nil, List.cons_append, List.nil_append, tColon]
    unfold pRawContext
    split
    · simp_all [NotHead, tColon]
    · simp_all
    · rename_i hx
      exact absurd rfl (hx u ro t r)

theorem MlsRange.head (m : MlsRange) : ∃ s r, m.tokens = .string s :: r := by
  rcases m with (k | ⟨k, k'⟩) | ⟨k | ⟨k, k'⟩, l⟩ <;> cases k <;>
    simp [MlsRange.tokens, MlsLevel.tokens, MlsComponent.tokens]

theorem pContextEnd_sound {c : RawContext} {m : MlsRange} {ts : List Token} {x : Context × List Token}
    (h : pContextEnd c m ts = some x) :
    .kw .genContext :: tOpen :: (c.tokens ++ tComma :: (m.tokens ++ ts)) = x.1.tokens ++ x.2 := by
  unfold pContextEnd at h
  split at h
  · simp at h; subst h; simp [Context.tokens, tClose]
  · simp at h; subst h; simp [Context.tokens, tClose, tComma]
  · simp only [Option.bind_eq_bind, Option.bind_eq_some_iff, Option.pure_def, Option.some.injEq] at h
    obtain ⟨a, ha, b, hb, rfl⟩ := h
    rw [pMlsRange_sound ha, pTok_sound hb]
    simp [Context.tokens, tComma]
  · cases h

theorem pContext_sound {ts : List Token} {x : Context × List Token}
    (h : pContext ts = some x) : ts = x.1.tokens ++ x.2 := by
  unfold pContext at h
  split at h
  · simp only [Option.bind_eq_bind, Option.bind_eq_some_iff, Option.pure_def] at h
    obtain ⟨r, hr, y, hy, h⟩ := h
    rw [pTok_sound hr, pRawContext_sound hy]
    split at h
    · rename_i e
      simp at h; subst h; simp [Context.tokens, e, tClose]
    · rename_i e
      simp only [Option.bind_eq_some_iff] at h
      obtain ⟨m, hm, h⟩ := h
      rw [← pContextEnd_sound h, e, pMlsRange_sound hm]
      rfl
    · cases h
  · simp only [Option.bind_eq_bind, Option.bind_eq_some_iff, Option.pure_def, Option.some.injEq] at h
    obtain ⟨y, hy, rfl⟩ := h
    simp [Context.tokens, pRawContext_sound hy]

theorem pContext_complete (a : Context) (r : List Token) (h : NotHead afterContext r) :
    pContext (a.tokens ++ r) = some (a, r) := by
  cases a with
  | raw c =>
    have := pRawContext_complete c r h
    obtain ⟨u, ro, t, m⟩ := c
    simp only [Context.tokens, RawContext.tokens, List.cons_append, List.nil_append] at this ⊢
    simp [pContext, this]
  | gen c =>
    have := pRawContext_complete c (.p .closeParen :: r) (by simp [NotHead, tColon])
    simp [Context.tokens, pContext, tClose, this]
  | gen1 c m =>
    have := pRawContext_complete c (.p .comma :: (m.tokens ++ .p .closeParen :: r)) (by simp [NotHead, tColon])
    have h2 := pMlsRange_complete m (.p .closeParen :: r) (by simp [NotHead, tColon])
    simp [Context.tokens, pContext, tClose, tComma, this, h2, pContextEnd]
  | gen2 c m n =>
    have := pRawContext_complete c (.p .comma :: (m.tokens ++ .p .comma :: (n.tokens ++ .p .closeParen :: r)))
      (by simp [NotHead, tColon])
    have h2 := pMlsRange_complete m (.p .comma :: (n.tokens ++ .p .closeParen :: r)) (by simp [NotHead, tColon])
    have h3 := pMlsRange_complete n (.p .closeParen :: r) (by simp [NotHead, tColon])
    have h4 : pContextEnd c m (.p .comma :: (n.tokens ++ .p .closeParen :: r)) = some (.gen2 c m n, r) := by
      unfold pContextEnd
      split
      · simp_all
      · rename_i e
        simp only [List.cons.injEq, true_and] at e
        exfalso
        obtain ⟨s, t, hn⟩ := n.head
        simp [hn] at e
      · rename_i e
        simp only [List.cons.injEq, true_and] at e
        subst e
        simp [h3, pTok, tClose]
      · simp_all
    simp [Context.tokens, pContext, tClose, tComma, this, h2, h4]
  | gen3 c m =>
    have := pRawContext_complete c (.p .comma :: (m.tokens ++ .p .comma :: .p .closeParen :: r))
      (by simp [NotHead, tColon])
    have h2 := pMlsRange_complete m (.p .comma :: .p .closeParen :: r) (by simp [NotHead, tColon])
    simp [Context.tokens, pContext, tClose, tComma, this, h2, pContextEnd]

end Selint
