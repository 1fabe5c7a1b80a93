import Verif.Lemmas.StmtParser
/-!
# The parsers for declarations, rules, and definitions in support and access vector files
-/

namespace Selint

theorem pTypeDecl_sound {n : Str} {ts : List Token} {x : Decl × List Token}
    (h : pTypeDecl n ts = some x) : .kw .type :: .string n :: ts = x.1.tokens ++ x.2 := by
  unfold pTypeDecl at h
  split at h
  all_goals try simp only [Option.bind_eq_bind, Option.bind_eq_some_iff, Option.pure_def,
    Option.some.injEq] at h
  · subst h; rfl
  · obtain ⟨y, hy, z, hz, rfl⟩ := h
    simp [Decl.tokens, pCommaList_sound hy, pTok_sound hz, tComma]
  · obtain ⟨y, hy, h⟩ := h
    split at h
    · rename_i e
      simp at h; subst h
      simp [Decl.tokens, pSList_sound hy, e, tSemi]
    · rename_i e
      simp only [Option.bind_eq_some_iff, Option.some.injEq] at h
      obtain ⟨z, hz, w, hw, rfl⟩ := h
      simp [Decl.tokens, pSList_sound hy, e, pCommaList_sound hz, pTok_sound hw, tComma]
    · cases h
  · cases h

theorem pStrSemi_sound {ts : List Token} {x : Str × List Token} (h : pStrSemi ts = some x) :
    ts = .string x.1 :: tSemi :: x.2 := by
  unfold pStrSemi at h
  simp only [Option.bind_eq_bind, Option.bind_eq_some_iff, Option.pure_def, Option.some.injEq] at h
  obtain ⟨y, hy, z, hz, rfl⟩ := h
  simp [pStr_sound hy, pTok_sound hz]

@[simp] theorem pStrSemi_complete (s : Str) (r : List Token) :
    pStrSemi (.string s :: tSemi :: r) = some (s, r) := by simp [pStrSemi]

theorem pStrStr_sound {ts : List Token} {x : (Str × Str) × List Token} (h : pStrStr ts = some x) :
    ts = .string x.1.1 :: tComma :: .string x.1.2 :: tClose :: x.2 := by
  unfold pStrStr at h
  simp only [Option.bind_eq_bind, Option.bind_eq_some_iff, Option.pure_def, Option.some.injEq] at h
  obtain ⟨y, hy, z, hz, w, hw, v, hv, rfl⟩ := h
  simp [pStr_sound hy, pTok_sound hz, pStr_sound hw, pTok_sound hv]

@[simp] theorem pStrStr_complete (s t : Str) (r : List Token) :
    pStrStr (.string s :: tComma :: .string t :: tClose :: r) = some ((s, t), r) := by simp [pStrStr]

theorem pQuoteStr_sound {ts : List Token} {x : Str × List Token} (h : pQuoteStr ts = some x) :
    ts = tQuote :: tComma :: .string x.1 :: tClose :: x.2 := by
  unfold pQuoteStr at h
  simp only [Option.bind_eq_bind, Option.bind_eq_some_iff, Option.pure_def, Option.some.injEq] at h
  obtain ⟨y, hy, z, hz, w, hw, v, hv, rfl⟩ := h
  simp [pTok_sound hy, pTok_sound hz, pStr_sound hw, pTok_sound hv]

@[simp] theorem pQuoteStr_complete (s : Str) (r : List Token) :
    pQuoteStr (tQuote :: tComma :: .string s :: tClose :: r) = some (s, r) := by simp [pQuoteStr]

theorem avOf_keyword {k : Keyword} {fl : AvFlavor} (h : avOf k = some fl) : k = avKeyword fl := by
  unfold avOf at h
  split at h <;> simp at h <;> subst h <;> rfl

theorem xavOf_keyword {k : Keyword} {fl : AvFlavor} (h : xavOf k = some fl) : k = xavKeyword fl := by
  unfold xavOf at h
  split at h <;> simp at h <;> subst h <;> rfl

theorem pRule_sound {fl : AvFlavor} {ts : List Token} {x : Simple × List Token}
    (h : pRule fl ts = some x) : .kw (avKeyword fl) :: ts = x.1.tokens ++ x.2 := by
  unfold pRule at h
  simp only [Option.bind_eq_bind, Option.bind_eq_some_iff, Option.pure_def] at h
  obtain ⟨s, hs, t, ht, h⟩ := h
  split at h
  · rename_i e
    simp only [Option.bind_eq_some_iff, Option.some.injEq] at h
    obtain ⟨c, hc, p, hp, z, hz, rfl⟩ := h
    simp [Simple.tokens, pSList_sound hs, pSList_sound ht, e, pSList_sound hc, pSList_sound hp,
      pTok_sound hz, tColon]
  · rename_i e
    split at h
    · rename_i hfl
      simp at h; subst h; subst hfl
      simp [Simple.tokens, pSList_sound hs, pSList_sound ht, e, tSemi, avKeyword]
    · cases h
  · cases h

theorem pTriple_sound {ts : List Token} {x : (SList × SList × SList) × List Token}
    (h : pTriple ts = some x) :
    ts = x.1.1.tokens ++ (x.1.2.1.tokens ++ tColon :: (x.1.2.2.tokens ++ x.2)) := by
  unfold pTriple at h
  simp only [Option.bind_eq_bind, Option.bind_eq_some_iff, Option.pure_def, Option.some.injEq] at h
  obtain ⟨s, hs, t, ht, z, hz, c, hc, rfl⟩ := h
  simp [pSList_sound hs, pSList_sound ht, pTok_sound hz, pSList_sound hc]

@[simp] theorem pTriple_complete (s t c : SList) (r : List Token) :
    pTriple (s.tokens ++ (t.tokens ++ tColon :: (c.tokens ++ r))) = some ((s, t, c), r) := by
  simp [pTriple]

theorem pXRule_sound {fl : AvFlavor} {ts : List Token} {x : Simple × List Token}
    (h : pXRule fl ts = some x) : .kw (xavKeyword fl) :: ts = x.1.tokens ++ x.2 := by
  unfold pXRule at h
  simp only [Option.bind_eq_bind, Option.bind_eq_some_iff, Option.pure_def, Option.some.injEq] at h
  obtain ⟨s, hs, o, ho, p, hp, z, hz, rfl⟩ := h
  simp [Simple.tokens, pTriple_sound hs, pStr_sound ho, pXList_sound hp, pTok_sound hz]

theorem pTypeTransition_sound {ts : List Token} {x : Simple × List Token}
    (h : pTypeTransition ts = some x) : .kw .typeTransition :: ts = x.1.tokens ++ x.2 := by
  unfold pTypeTransition at h
  simp only [Option.bind_eq_bind, Option.bind_eq_some_iff, Option.pure_def] at h
  obtain ⟨s, hs, d, hd, h⟩ := h
  split at h
  · rename_i e
    simp only [Option.bind_eq_some_iff, Option.some.injEq] at h
    obtain ⟨z, hz, rfl⟩ := h
    simp [Simple.tokens, pTriple_sound hs, pStr_sound hd, e, pTok_sound hz]
  · simp only [Option.bind_eq_some_iff, Option.some.injEq] at h
    obtain ⟨z, hz, rfl⟩ := h
    simp [Simple.tokens, pTriple_sound hs, pStr_sound hd, pTok_sound hz]

theorem pRoleTransition_sound {ts : List Token} {x : Simple × List Token}
    (h : pRoleTransition ts = some x) : .kw .roleTransition :: ts = x.1.tokens ++ x.2 := by
  unfold pRoleTransition at h
  simp only [Option.bind_eq_bind, Option.bind_eq_some_iff, Option.pure_def] at h
  obtain ⟨s, hs, t, ht, h⟩ := h
  split at h
  · rename_i e
    simp only [Option.bind_eq_some_iff, Option.some.injEq] at h
    obtain ⟨c, hc, d, hd, rfl⟩ := h
    simp [Simple.tokens, pSList_sound hs, pSList_sound ht, e, pSList_sound hc, pStrSemi_sound hd, tColon]
  · simp only [Option.bind_eq_some_iff, Option.some.injEq] at h
    obtain ⟨d, hd, rfl⟩ := h
    simp [Simple.tokens, pSList_sound hs, pSList_sound ht, pStrSemi_sound hd]

theorem pCallOrMacro_sound {n : Str} {ts : List Token} {x : Simple × List Token}
    (h : pCallOrMacro n ts = some x) : .string n :: ts = x.1.tokens ++ x.2 := by
  unfold pCallOrMacro at h
  split at h
  · simp at h; subst h; rfl
  · simp only [Option.bind_eq_bind, Option.bind_eq_some_iff, Option.pure_def, Option.some.injEq] at h
    obtain ⟨y, hy, z, hz, rfl⟩ := h
    simp [Simple.tokens, pArgs_sound hy, pTok_sound hz, tOpen]
  · simp at h; subst h; rfl

theorem pSimpleKw_sound {k : Keyword} {ts : List Token} {x : Simple × List Token}
    (h : pSimpleKw k ts = some x) : .kw k :: ts = x.1.tokens ++ x.2 := by
  unfold pSimpleKw at h
  split at h
  all_goals try simp only [Option.bind_eq_bind, Option.bind_eq_some_iff, Option.pure_def,
    Option.some.injEq] at h
  · obtain ⟨n, hn, d, hd, rfl⟩ := h
    simp only [Simple.tokens]
    rw [← pTypeDecl_sound hd, pStr_sound hn]
  · obtain ⟨n, hn, rfl⟩ := h
    simp [Simple.tokens, Decl.tokens, pStrSemi_sound hn]
  · obtain ⟨n, hn, l, hl, z, hz, rfl⟩ := h
    simp [Simple.tokens, Decl.tokens, pStr_sound hn, pSList_sound hl, pTok_sound hz]
  · obtain ⟨n, hn, h⟩ := h
    split at h
    · rename_i e
      simp at h; subst h
      simp [Simple.tokens, Decl.tokens, pStr_sound hn, e, tSemi]
    · rename_i e
      simp only [Option.bind_eq_some_iff, Option.some.injEq] at h
      obtain ⟨l, hl, z, hz, rfl⟩ := h
      simp [Simple.tokens, pStr_sound hn, e, pSList_sound hl, pTok_sound hz]
    · cases h
  · obtain ⟨n, hn, rfl⟩ := h
    simp [Simple.tokens, Decl.tokens, pStrSemi_sound hn]
  · obtain ⟨n, hn, rfl⟩ := h
    simp [Simple.tokens, Decl.tokens, pStrSemi_sound hn]
  · obtain ⟨z, hz, n, hn, rfl⟩ := h
    simp [Simple.tokens, Decl.tokens, pTok_sound hz, pStrStr_sound hn]
  · obtain ⟨z, hz, h⟩ := h
    split at h
    · simp only [Option.bind_eq_some_iff, Option.some.injEq] at h
      obtain ⟨n, hn, d, hd, rfl⟩ := h
      simp [Simple.tokens, Decl.tokens, pTok_sound hz, pStr_sound hn, pQuoteStr_sound hd, tTick]
    · simp only [Option.bind_eq_some_iff, Option.some.injEq] at h
      obtain ⟨n, hn, rfl⟩ := h
      simp [Simple.tokens, Decl.tokens, pTok_sound hz, pStrStr_sound hn]
  · obtain ⟨n, hn, l, hl, z, hz, rfl⟩ := h
    simp [Simple.tokens, pStr_sound hn, pCommaList_sound hl, pTok_sound hz]
  · obtain ⟨n, hn, l, hl, z, hz, rfl⟩ := h
    simp [Simple.tokens, pStr_sound hn, pCommaList_sound hl, pTok_sound hz]
  · obtain ⟨n, hn, w, hw, l, hl, z, hz, rfl⟩ := h
    simp [Simple.tokens, pStr_sound hn, pTok_sound hw, pSList_sound hl, pTok_sound hz]
  · exact pTypeTransition_sound h
  · obtain ⟨s, hs, d, hd, rfl⟩ := h
    simp [Simple.tokens, pTriple_sound hs, pStrSemi_sound hd]
  · obtain ⟨s, hs, d, hd, rfl⟩ := h
    simp [Simple.tokens, pTriple_sound hs, pStrSemi_sound hd]
  · obtain ⟨s, hs, d, hd, z, hz, rfl⟩ := h
    simp [Simple.tokens, pTriple_sound hs, pMlsRange_sound hd, pTok_sound hz]
  · exact pRoleTransition_sound h
  · obtain ⟨n, hn, rfl⟩ := h
    simp [Simple.tokens, pStrSemi_sound hn]
  · split at h
    · rename_i hk
      rw [avOf_keyword hk]
      exact pRule_sound h
    · split at h
      · rename_i hk
        rw [xavOf_keyword hk]
        exact pXRule_sound h
      · cases h

theorem pSimple_sound {ts : List Token} {x : Simple × List Token} (h : pSimple ts = some x) :
    ts = x.1.tokens ++ x.2 := by
  unfold pSimple at h
  split at h
  · exact pCallOrMacro_sound h
  · simp at h; subst h; rfl
  · exact pSimpleKw_sound h
  · cases h

theorem pSimpleKw_rule (fl : AvFlavor) (r : List Token) : pSimpleKw (avKeyword fl) r = pRule fl r := by
  cases fl <;> rfl

theorem pSimpleKw_xrule (fl : AvFlavor) (r : List Token) : pSimpleKw (xavKeyword fl) r = pXRule fl r := by
  cases fl <;> rfl

theorem Args.head_ne (a : Args) (r r' : List Token) : a.tokens ++ r ≠ .p .closeParen :: r' := by
  obtain ⟨a, l⟩ := a
  rcases a with l | s | ⟨i, l⟩ | _
  · cases l with
    | braces => simp [Args.tokens, Arg.tokens, XList.tokens, tLeft]
    | tilda => simp [Args.tokens, Arg.tokens, XList.tokens]
    | item i => cases i <;> simp [Args.tokens, Arg.tokens, XList.tokens, XItem.tokens]
  · simp [Args.tokens, Arg.tokens]
  · simp [Args.tokens, Arg.tokens, tTick]
  · simp [Args.tokens, Arg.tokens, tTick]

theorem pCallOrMacro_args (n : Str) (a : Args) (r : List Token) :
    pCallOrMacro n (.p .openParen :: (a.tokens ++ tClose :: r)) = some (.call n (some a), r) := by
  unfold pCallOrMacro
  split
  · rename_i e
    injection e with _ e
    exact absurd e (a.head_ne _ _)
  · rename_i e
    injection e with _ e
    subst e
    simp
  · rename_i h1 h2
    exact absurd rfl (h2 _)

theorem pCallOrMacro_macro (n : Str) {r : List Token} (h : NotHead [tOpen] r) :
    pCallOrMacro n r = some (.simpleMacro n, r) := by
  unfold pCallOrMacro
  split
  · simp [NotHead, tOpen] at h
  · simp [NotHead, tOpen] at h
  · rfl

theorem pSimple_complete (a : Simple) {r : List Token} (h : NotHead [tOpen] r) :
    pSimple (a.tokens ++ r) = some (a, r) := by
  cases a with
  | decl d =>
    cases d with
    | type n => rfl
    | typeAttrs n l => simp [Simple.tokens, Decl.tokens, pSimple, pSimpleKw, pTypeDecl, tComma]
    | typeAlias n l => simp [Simple.tokens, Decl.tokens, pSimple, pSimpleKw, pTypeDecl, tSemi]
    | typeAliasAttrs n l m => simp [Simple.tokens, Decl.tokens, pSimple, pSimpleKw, pTypeDecl, tComma]
    | attr n => rfl
    | cls n l => simp [Simple.tokens, Decl.tokens, pSimple, pSimpleKw]
    | role n => rfl
    | attributeRole n => rfl
    | bool n => rfl
    | genBool n d => rfl
    | genTunableQuoted n d => rfl
    | genTunable n d => rfl
  | typeAttribute n l => simp [Simple.tokens, pSimple, pSimpleKw]
  | roleAttribute n l => simp [Simple.tokens, pSimple, pSimpleKw]
  | typeAlias n l => simp [Simple.tokens, pSimple, pSimpleKw]
  | rule fl s t c p => simp [Simple.tokens, pSimple, pSimpleKw_rule, pRule, tColon]
  | xrule fl s t c o p => simp [Simple.tokens, pSimple, pSimpleKw_xrule, pXRule]
  | roleAllow f t =>
    have := pSimpleKw_rule .allow
    simp only [avKeyword] at this
    simp [Simple.tokens, pSimple, this, pRule, tSemi]
  | roleTypes n l => simp [Simple.tokens, pSimple, pSimpleKw]
  | typeTransition s t c d n =>
    cases n <;> simp [Simple.tokens, pSimple, pSimpleKw, pTypeTransition, tSemi, pTok]
  | typeMember s t c d => simp [Simple.tokens, pSimple, pSimpleKw]
  | typeChange s t c d => simp [Simple.tokens, pSimple, pSimpleKw]
  | rangeTransition s t c m =>
    have := pMlsRange_complete m (tSemi :: r) (by simp [NotHead, tSemi, tColon])
    simp [Simple.tokens, pSimple, pSimpleKw, this]
  | roleTransition s t d => simp [Simple.tokens, pSimple, pSimpleKw, pRoleTransition]
  | roleTransitionClass s t c d => simp [Simple.tokens, pSimple, pSimpleKw, pRoleTransition, tColon]
  | call n a =>
    cases a with
    | none => rfl
    | some a =>
      simp only [Simple.tokens, List.cons_append, List.append_assoc, List.nil_append, pSimple, tOpen]
      exact pCallOrMacro_args n a r
  | simpleMacro n =>
    simp only [Simple.tokens, List.cons_append, List.nil_append, pSimple]
    exact pCallOrMacro_macro n h
  | permissive n => rfl
  | semicolon => rfl

/-! ## Support and access vector files -/

/-- The tokens of the optional warning. -/
def warnTokens : Option M4String → List Token
  | none => []
  | some s => (Silent.refpolicywarn s).tokens

theorem SptDef.tokens_eq (d : SptDef) :
    d.tokens = [.kw .define, tOpen, tTick, .string d.name, tQuote, tComma, tTick] ++ d.list.tokens ++
      warnTokens d.warn ++ [tQuote, tClose] := by
  obtain ⟨n, l, w⟩ := d
  cases w <;> rfl

theorem pWarn_sound {ts : List Token} {x : Option M4String × List Token} (h : pWarn ts = some x) :
    ts = warnTokens x.1 ++ x.2 := by
  unfold pWarn at h
  split at h
  · simp only [Option.bind_eq_bind, Option.bind_eq_some_iff, Option.pure_def, Option.some.injEq] at h
    obtain ⟨a, ha, b, hb, y, hy, c, hc, d, hd, rfl⟩ := h
    simp [warnTokens, Silent.tokens, pTok_sound ha, pTok_sound hb, pM4String_sound hy, pTok_sound hc,
      pTok_sound hd]
  · simp at h; subst h; rfl

theorem pWarn_complete (w : Option M4String) (r : List Token) :
    pWarn (warnTokens w ++ tQuote :: r) = some (w, tQuote :: r) := by
  cases w with
  | none => rfl
  | some s => simp [warnTokens, Silent.tokens, pWarn, pM4String_complete]

theorem pSptDef_sound {ts : List Token} {x : SptDef × List Token} (h : pSptDef ts = some x) :
    ts = x.1.tokens ++ x.2 := by
  unfold pSptDef at h
  simp only [Option.bind_eq_bind, Option.bind_eq_some_iff, Option.pure_def, Option.some.injEq] at h
  obtain ⟨a, ha, b, hb, c, hc, n, hn, d, hd, e, he, f, hf, l, hl, w, hw, i, hi, j, hj, rfl⟩ := h
  rw [SptDef.tokens_eq]
  simp [pTok_sound ha, pTok_sound hb, pTok_sound hc, pStr_sound hn, pTok_sound hd, pTok_sound he,
    pTok_sound hf, pSList_sound hl, pWarn_sound hw, pTok_sound hi, pTok_sound hj]

theorem pSptDef_complete (d : SptDef) (r : List Token) : pSptDef (d.tokens ++ r) = some (d, r) := by
  simp [SptDef.tokens_eq, pSptDef, pWarn_complete]

/-- The token of an element of a permission list. -/
def avPermToken : Option Str → Token
  | none => .comment
  | some s => .string s

theorem AvPerms.tokens_eq (p : AvPerms) :
    p.tokens = tLeft :: (avPermToken p.first :: p.rest.flatMap (fun a => [avPermToken a]) ++ [tRight]) := by
  have : p.tokens = tLeft :: (p.all.map avPermToken ++ [tRight]) := by
    simp only [AvPerms.tokens]
    congr 2
  simp [this, AvPerms.all, List.map_eq_flatMap]

theorem AvPerms.head (p : AvPerms) : ∃ r, p.tokens = .p .openCurly :: r := ⟨_, rfl⟩

theorem pAvPerm_sound {ts : List Token} {x : Option Str × List Token} (h : pAvPerm ts = some x) :
    ts = [avPermToken x.1] ++ x.2 := by
  unfold pAvPerm at h
  split at h <;> simp at h <;> subst h <;> rfl

theorem pAvPerm_complete (a : Option Str) (r : List Token) :
    pAvPerm ([avPermToken a] ++ r) = some (a, r) := by cases a <;> rfl

theorem pAvPerms_sound {ts : List Token} {x : AvPerms × List Token} (h : pAvPerms ts = some x) :
    ts = x.1.tokens ++ x.2 := by
  unfold pAvPerms at h
  simp only [Option.bind_eq_bind, Option.bind_eq_some_iff, Option.pure_def, Option.some.injEq] at h
  obtain ⟨a, ha, b, hb, c, hc, rfl⟩ := h
  have hs := pStar_sound (tokens := fun a => [avPermToken a]) (fun _ _ h => pAvPerm_sound h) b.2
  generalize pStar pAvPerm b.2 = w at hs hc ⊢
  rw [AvPerms.tokens_eq, pTok_sound ha, pAvPerm_sound hb, hs, pTok_sound hc]
  simp

theorem pAvPerms_complete (p : AvPerms) (r : List Token) : pAvPerms (p.tokens ++ r) = some (p, r) := by
  have hs := pStar_complete (tokens := fun a => [avPermToken a]) pAvPerm_complete (by simp)
    (r := tRight :: r) (by rfl) p.rest
  have hf := pAvPerm_complete p.first (p.rest.flatMap (fun a => [avPermToken a]) ++ tRight :: r)
  simp only [List.cons_append, List.nil_append] at hf
  rw [AvPerms.tokens_eq]
  simp only [List.cons_append, List.append_assoc, List.nil_append, pAvPerms, pTok_cons, Option.bind_eq_bind,
    Option.bind_some, hf, hs, Option.pure_def]

theorem pAvDef_sound {ts : List Token} {x : AvDef × List Token} (h : pAvDef ts = some x) :
    ts = x.1.tokens ++ x.2 := by
  unfold pAvDef at h
  split at h
  · simp only [Option.bind_eq_bind, Option.bind_eq_some_iff, Option.pure_def, Option.some.injEq] at h
    obtain ⟨y, hy, rfl⟩ := h
    simp [AvDef.tokens, pAvPerms_sound hy]
  · split at h
    · simp only [Option.bind_eq_bind, Option.bind_eq_some_iff, Option.pure_def, Option.some.injEq] at h
      obtain ⟨y, hy, rfl⟩ := h
      have := pAvPerms_sound hy
      simp only [AvDef.tokens, List.cons_append, List.nil_append]
      rw [← this]
    · simp at h; subst h; rfl
  · simp only [Option.bind_eq_bind, Option.bind_eq_some_iff, Option.pure_def, Option.some.injEq] at h
    obtain ⟨y, hy, rfl⟩ := h
    simp [AvDef.tokens, pAvPerms_sound hy]
  · cases h

theorem pAvDef_complete (d : AvDef) {r : List Token} (h : NotHead [tLeft] r) :
    pAvDef (d.tokens ++ r) = some (d, r) := by
  cases d with
  | common n p => simp [AvDef.tokens, pAvDef, pAvPerms_complete]
  | cls n p =>
    have := pAvPerms_complete p r
    obtain ⟨q, hq⟩ := p.head
    simp only [hq, List.cons_append] at this
    simp [AvDef.tokens, hq, pAvDef, this]
  | inherits n c =>
    simp only [AvDef.tokens, List.cons_append, List.nil_append, pAvDef]
    split
    · simp [NotHead, tLeft] at h
    · rfl
  | inheritsPerms n c p =>
    have := pAvPerms_complete p r
    obtain ⟨q, hq⟩ := p.head
    simp only [hq, List.cons_append] at this
    simp [AvDef.tokens, hq, pAvDef, this]

theorem pHeader_sound {ts : List Token} {x : (Str × Bool × Bool × Str) × List Token}
    (h : pHeader ts = some x) (line : Nat) :
    ts = (Header.mk line x.1.1 x.1.2.1 x.1.2.2.1 x.1.2.2.2).tokens ++ x.2 := by
  unfold pHeader at h
  split at h <;> simp at h <;> subst h <;> rfl

theorem pHeader_complete (h : Header) (r : List Token) :
    pHeader (h.tokens ++ r) = some ((h.name, h.isMacro, h.numberOnly, h.version), r) := by
  obtain ⟨l, n, m, o, v⟩ := h
  cases m <;> cases o <;> rfl

end Selint
