import Verif.Lemmas.TokParser
/-!
# The parsers for conditions, m4 text and statements without a block
-/

namespace Selint

/-! ## Conditions -/

theorem condOp_tokens {t : Token} {op : Condition → Condition → Condition} (h : condOp t = some op)
    (a b : Condition) : (op a b).tokens = a.tokens ++ t :: b.tokens := by
  unfold condOp at h
  split at h <;> simp at h <;> subst h <;> rfl

theorem condRest_sound {rec : TokParser Condition}
    (hrec : ∀ ts x, rec ts = some x → ts = x.1.tokens ++ x.2) {a : Condition} {ts : List Token}
    {x : Condition × List Token} (h : condRest rec a ts = some x) :
    a.tokens ++ ts = x.1.tokens ++ x.2 := by
  cases ts with
  | nil => simp [condRest] at h; subst h; simp
  | cons t r =>
    simp only [condRest] at h
    split at h
    · simp at h; subst h; simp
    · rename_i op hop
      simp only [Option.bind_eq_bind, Option.bind_eq_some_iff, Option.pure_def, Option.some.injEq] at h
      obtain ⟨y, hy, rfl⟩ := h
      simp [condOp_tokens hop, hrec _ _ hy]

theorem pCondF_sound {n : Nat} {ts : List Token} {x : Condition × List Token}
    (h : pCondF n ts = some x) : ts = x.1.tokens ++ x.2 := by
  induction n generalizing ts x with
  | zero => simp [pCondF] at h
  | succ n ih =>
    have ihr := @condRest_sound (pCondF n) (fun _ _ h => ih h)
    unfold pCondF at h
    split at h
    · cases h
    · rename_i e; cases e
      exact ihr h
    · rename_i e; cases e
      simp only [Option.bind_eq_bind, Option.bind_eq_some_iff] at h
      obtain ⟨y, hy, h⟩ := h
      rw [← ihr h, ih hy]
      simp [Condition.tokens]
    · rename_i e; cases e
      simp only [Option.bind_eq_bind, Option.bind_eq_some_iff] at h
      obtain ⟨y, hy, z, hz, h⟩ := h
      rw [← ihr h, ih hy, pTok_sound hz]
      simp [Condition.tokens, tOpen]
    · cases h

/-- The next token is no binary operator. -/
def NoOp (ts : List Token) : Prop := ∀ t r, ts = t :: r → condOp t = none

/-- What follows an operand leads to `rest`. -/
def CondCont (tail rest : List Token) : Prop :=
  tail = rest ∨ ∃ t op ts, tail = t :: ts ∧ condOp t = some op ∧
    ∀ n, ts.length ≤ n → ∃ c, pCondF n ts = some (c, rest)

theorem condRest_complete {tail rest : List Token} (hr : NoOp rest) (h : CondCont tail rest) (a : Condition)
    (n : Nat) (hn : tail.length ≤ n + 1) : ∃ c, condRest (pCondF n) a tail = some (c, rest) := by
  rcases h with rfl | ⟨t, op, ts, rfl, hop, h⟩
  · cases tail with
    | nil => exact ⟨a, rfl⟩
    | cons t r => exact ⟨a, by simp [condRest, hr t r rfl]⟩
  · simp only [List.length_cons] at hn
    obtain ⟨c, hc⟩ := h n (by omega)
    exact ⟨op a c, by simp [condRest, hop, hc]⟩

theorem pCondF_complete (c : Condition) {tail rest : List Token} (hr : NoOp rest) (h : CondCont tail rest)
    (n : Nat) (hn : (c.tokens ++ tail).length ≤ n) :
    ∃ c', pCondF n (c.tokens ++ tail) = some (c', rest) := by
  have hbin : ∀ (c d : Condition) (t : Token) (op : Condition → Condition → Condition),
      condOp t = some op →
      (∀ {tail rest : List Token}, NoOp rest → CondCont tail rest → ∀ n, (c.tokens ++ tail).length ≤ n →
        ∃ c', pCondF n (c.tokens ++ tail) = some (c', rest)) →
      (∀ {tail rest : List Token}, NoOp rest → CondCont tail rest → ∀ n, (d.tokens ++ tail).length ≤ n →
        ∃ c', pCondF n (d.tokens ++ tail) = some (c', rest)) →
      ∀ {tail rest : List Token}, NoOp rest → CondCont tail rest →
        ∀ n, (c.tokens ++ t :: d.tokens ++ tail).length ≤ n →
        ∃ c', pCondF n (c.tokens ++ t :: d.tokens ++ tail) = some (c', rest) := by
    intro c d t op hop ihc ihd tail rest hr h n hn
    simp only [List.append_assoc, List.cons_append] at hn ⊢
    exact ihc hr (.inr ⟨t, op, _, rfl, hop, fun m hm => ihd hr h m hm⟩) n hn
  induction c generalizing tail rest n with
  | name s =>
    cases n with
    | zero => simp [Condition.tokens] at hn
    | succ n =>
      simp only [Condition.tokens, List.cons_append, List.nil_append, List.length_cons] at hn ⊢
      simp only [pCondF]
      exact condRest_complete hr h _ n (by omega)
  | not c ih =>
    cases n with
    | zero => simp [Condition.tokens] at hn
    | succ n =>
      simp only [Condition.tokens, List.cons_append, List.length_cons] at hn ⊢
      obtain ⟨c', hc⟩ := ih hr h n (by omega)
      simp only [pCondF, hc, Option.bind_eq_bind, Option.bind_some]
      cases rest with
      | nil => exact ⟨_, rfl⟩
      | cons t r => exact ⟨.not c', by simp [condRest, hr t r rfl]⟩
  | paren c ih =>
    cases n with
    | zero => simp [Condition.tokens] at hn
    | succ n =>
      simp only [Condition.tokens, List.cons_append, List.append_assoc, List.nil_append, List.length_cons,
        tOpen] at hn ⊢
      obtain ⟨c', hc⟩ := ih (tail := tClose :: tail) (rest := tClose :: tail)
        (by intro t r e; cases e; rfl) (.inl rfl) n (by omega)
      simp only [pCondF, hc, Option.bind_eq_bind, Option.bind_some, pTok_cons]
      simp only [List.length_append, List.length_cons] at hn
      exact condRest_complete hr h _ n (by omega)
  | and c d ihc ihd => exact hbin c d _ _ rfl (fun a b => ihc a b) (fun a b => ihd a b) hr h n hn
  | or c d ihc ihd => exact hbin c d _ _ rfl (fun a b => ihc a b) (fun a b => ihd a b) hr h n hn
  | xor c d ihc ihd => exact hbin c d _ _ rfl (fun a b => ihc a b) (fun a b => ihd a b) hr h n hn
  | equal c d ihc ihd => exact hbin c d _ _ rfl (fun a b => ihc a b) (fun a b => ihd a b) hr h n hn
  | notEqual c d ihc ihd => exact hbin c d _ _ rfl (fun a b => ihc a b) (fun a b => ihd a b) hr h n hn

theorem pCond_sound {ts : List Token} {x : Condition × List Token} (h : pCond ts = some x) :
    ts = x.1.tokens ++ x.2 := pCondF_sound h

theorem pCond_complete (c : Condition) {rest : List Token} (hr : NoOp rest) :
    ∃ c', pCond (c.tokens ++ rest) = some (c', rest) :=
  pCondF_complete c hr (.inl rfl) _ (Nat.le_refl _)

/-! ## m4 text -/

theorem pM4Elem_sound {t : Token} {e : M4Elem} (h : pM4Elem t = some e) : t = e.token := by
  unfold pM4Elem at h
  split at h
  · simp at h; subst h; rfl
  · split at h
    · simp at h; subst h; rfl
    · cases h
  · cases h

@[simp] theorem pM4Elem_token (e : M4Elem) : pM4Elem e.token = some e := by
  cases e with
  | word s => rfl
  | punct p h => simp only [M4Elem.token, pM4Elem, h, dite_true]

theorem M4Elem.ne_tick (e : M4Elem) : e.token ≠ tTick := by
  cases e with
  | word s => simp [M4Elem.token, tTick]
  | punct p h => simp only [M4Elem.token, tTick, ne_eq, Token.p.injEq]; rintro rfl; simp at h

theorem M4Elem.ne_quote (e : M4Elem) : e.token ≠ tQuote := by
  cases e with
  | word s => simp [M4Elem.token, tQuote]
  | punct p h => simp only [M4Elem.token, tQuote, ne_eq, Token.p.injEq]; rintro rfl; simp at h

theorem pM4String_sound {ts : List Token} {x : M4String × List Token} (h : pM4String ts = some x) :
    ts = x.1.tokens ++ x.2 := by
  fun_induction pM4String ts generalizing x with
  | _ =>
    try simp only [Option.bind_eq_bind, Option.bind_eq_some_iff, Option.pure_def] at h
    grind [M4String.tokens, → pM4Elem_sound, → pTok_sound, tTick, tQuote]

theorem pM4String_complete (s : M4String) (r : List Token) :
    pM4String (s.tokens ++ tQuote :: r) = some (s, tQuote :: r) := by
  induction s with
  | one e =>
    simp only [M4String.tokens, List.cons_append, List.nil_append]
    unfold pM4String
    split
    · simp_all
    · rename_i h; injection h with h; exact absurd h e.ne_tick
    · rename_i h; injection h with h1 h2; subst h1 h2; simp
  | more e s ih =>
    simp only [M4String.tokens, List.cons_append]
    unfold pM4String
    split
    · simp_all
    · rename_i h; injection h with h; exact absurd h e.ne_tick
    · rename_i h; injection h with h1 h2; subst h1 h2
      simp only [pM4Elem_token]
      split
      · rename_i h
        have := pTok_sound h
        exfalso
        cases s <;> simp [M4String.tokens, M4Elem.ne_quote] at this
        · simp [tTick, tQuote] at this
      · simp [ih]
  | quoted e => simp [M4String.tokens, tTick, tQuote, pM4String]

/-! ## Statements without a node -/

theorem pPortRange_sound {ts : List Token} {x : PortRange × List Token} (h : pPortRange ts = some x) :
    ts = x.1.tokens ++ x.2 := by
  unfold pPortRange at h
  split at h <;> simp at h <;> subst h <;> rfl

theorem pPortRange_complete (a : PortRange) {r : List Token} (h : NotHead [.p .dash] r) :
    pPortRange (a.tokens ++ r) = some (a, r) := by
  cases a with
  | numString s => rfl
  | range s t => rfl
  | number s =>
    simp only [PortRange.tokens, List.cons_append, List.nil_append]
    unfold pPortRange
    split <;> simp_all [NotHead]

theorem pMaybeStringComma_sound {ts : List Token} {x : Option Str × List Token}
    (h : pMaybeStringComma ts = some x) : ts = maybeStringComma x.1 ++ x.2 := by
  unfold pMaybeStringComma at h
  split at h <;> simp at h <;> subst h <;> rfl

@[simp] theorem pMaybeStringComma_complete (a : Option Str) (r : List Token) :
    pMaybeStringComma (maybeStringComma a ++ r) = some (a, r) := by cases a <;> rfl

theorem Context.head (c : Context) :
    (∃ s r, c.tokens = .string s :: r) ∨ ∃ r, c.tokens = .kw .genContext :: r := by
  cases c <;> simp [Context.tokens, RawContext.tokens]

theorem Context.notHead (c : Context) {l : List Token} (h : ∀ s, .string s ∉ l)
    (h' : .kw .genContext ∉ l) (r : List Token) : NotHead l (c.tokens ++ r) := by
  rcases c.head with ⟨s, t, e⟩ | ⟨t, e⟩ <;> simp [e, NotHead, h, h']

theorem pGenfscon_sound {numeric : Bool} {fs : Str} {ts : List Token} {x : Silent × List Token}
    (h : pGenfscon numeric fs ts = some x) :
    .kw .genfscon :: (if numeric then .numString fs else .string fs) :: ts = x.1.tokens ++ x.2 := by
  unfold pGenfscon at h
  simp only [Option.bind_eq_bind, Option.bind_eq_some_iff, Option.pure_def] at h
  obtain ⟨y, hy, h⟩ := h
  split at h <;>
  · simp only [Option.bind_eq_some_iff, Option.some.injEq] at h
    obtain ⟨c, hc, rfl⟩ := h
    simp_all [Silent.tokens, pStr_sound hy, pContext_sound hc]

theorem pGenfscon_complete (numeric : Bool) (fs path : Str) (spec : Bool) (c : Context) {r : List Token}
    (h : NotHead afterContext r) :
    pGenfscon numeric fs (.string path :: ((if spec then [.fileType] else []) ++ c.tokens ++ r)) =
      some (.genfscon numeric fs path spec c, r) := by
  have hc := pContext_complete c r h
  cases spec with
  | true => simp [pGenfscon, hc]
  | false =>
    rcases c.head with ⟨s, t, e⟩ | ⟨t, e⟩ <;> simp [e] at hc <;> simp [pGenfscon, hc, e]

theorem pFsUse_sound {k : Keyword} {hk : k = .fsUseTrans ∨ k = .fsUseXattr ∨ k = .fsUseTask}
    {ts : List Token} {x : Silent × List Token} (h : pFsUse k hk ts = some x) :
    .kw k :: ts = x.1.tokens ++ x.2 := by
  unfold pFsUse at h
  simp only [Option.bind_eq_bind, Option.bind_eq_some_iff, Option.pure_def, Option.some.injEq] at h
  obtain ⟨y, hy, c, hc, z, hz, rfl⟩ := h
  simp [Silent.tokens, pStr_sound hy, pContext_sound hc, pTok_sound hz]

theorem pFsUse_complete (k : Keyword) (hk : k = .fsUseTrans ∨ k = .fsUseXattr ∨ k = .fsUseTask) (s : Str)
    (c : Context) (r : List Token) :
    pFsUse k hk (.string s :: (c.tokens ++ tSemi :: r)) = some (.fsUse k hk s c, r) := by
  have hc := pContext_complete c (tSemi :: r) (by simp [NotHead, tSemi, tColon])
  simp [pFsUse, hc]

/-- The optional third range of `gen_user`. -/
def thirdRange : Option MlsRange → List Token
  | none => []
  | some t => tComma :: t.tokens

theorem genUser_tokens (a b : Option Str) (i : SlItem) (l : List SlItem) (m n : MlsRange)
    (t : Option MlsRange) :
    (Silent.genUser a b i l m n t).tokens = [.kw .genUser, tOpen] ++ maybeStringComma a ++
      maybeStringComma b ++ i.tokens ++ l.flatMap SlItem.tokens ++ tComma :: m.tokens ++
      tComma :: n.tokens ++ thirdRange t ++ [tClose] := by cases t <;> rfl

theorem pGenUserEnd_sound {ts : List Token} {x : Option MlsRange × List Token}
    (h : pGenUserEnd ts = some x) :
    ts = thirdRange x.1 ++ tClose :: x.2 := by
  unfold pGenUserEnd at h
  split at h
  · simp only [Option.bind_eq_bind, Option.bind_eq_some_iff, Option.pure_def, Option.some.injEq] at h
    obtain ⟨y, hy, z, hz, rfl⟩ := h
    simp [pMlsRange_sound hy, pTok_sound hz, tComma, thirdRange]
  · simp only [Option.bind_eq_bind, Option.bind_eq_some_iff, Option.pure_def, Option.some.injEq] at h
    obtain ⟨z, hz, rfl⟩ := h
    simp [pTok_sound hz, thirdRange]

theorem pGenUserEnd_complete (t : Option MlsRange) (r : List Token) :
    pGenUserEnd (thirdRange t ++ tClose :: r) = some (t, r) := by
  cases t with
  | none => simp [pGenUserEnd, tClose, pTok, thirdRange]
  | some t =>
    have := pMlsRange_complete t (tClose :: r) (by simp [NotHead, tClose, tColon])
    simp [pGenUserEnd, tComma, this, thirdRange]

theorem pGenUser_sound {ts : List Token} {x : Silent × List Token} (h : pGenUser ts = some x) :
    .kw .genUser :: ts = x.1.tokens ++ x.2 := by
  unfold pGenUser at h
  simp only [Option.bind_eq_bind, Option.bind_eq_some_iff, Option.pure_def, Option.some.injEq] at h
  obtain ⟨r0, h0, a, ha, b, hb, y, hy, r1, h1, m, hm, r2, h2, n, hn, z, hz, rfl⟩ := h
  have hs := pStar_slItem_sound y.2
  generalize pStar pSlItem y.2 = w at hs h1 ⊢
  rw [pTok_sound h0, pMaybeStringComma_sound ha, pMaybeStringComma_sound hb, pSlItem_sound hy, hs,
    pTok_sound h1, pMlsRange_sound hm, pTok_sound h2, pMlsRange_sound hn, pGenUserEnd_sound hz]
  simp [genUser_tokens]

theorem pGenUser_complete (a b : Option Str) (i : SlItem) (l : List SlItem) (m n : MlsRange)
    (t : Option MlsRange) (r : List Token) :
    pGenUser (tOpen :: (maybeStringComma a ++ (maybeStringComma b ++ (i.tokens ++
      (l.flatMap SlItem.tokens ++ tComma :: (m.tokens ++ tComma :: (n.tokens ++
        (thirdRange t ++ tClose :: r)))))))) =
      some (.genUser a b i l m n t, r) := by
  have he := pGenUserEnd_complete t r
  have hq : NotHead afterContext (thirdRange t ++ tClose :: r) := by
    cases t <;> simp [NotHead, tComma, tClose, tColon, thirdRange]
  generalize thirdRange t ++ tClose :: r = q at he hq ⊢
  have hm := pMlsRange_complete m (tComma :: (n.tokens ++ q)) (by simp [NotHead, tComma, tColon])
  have hn := pMlsRange_complete n q hq
  have hl := pStar_slItem l (r := tComma :: (m.tokens ++ tComma :: (n.tokens ++ q))) (by rfl)
  simp only [pGenUser, pTok_cons, Option.bind_eq_bind, Option.bind_some, pMaybeStringComma_complete,
    pSlItem_complete, hl, hm, hn, he, Option.pure_def]

theorem pSilent_sound {ts : List Token} {x : Silent × List Token} (h : pSilent ts = some x) :
    ts = x.1.tokens ++ x.2 := by
  unfold pSilent at h
  split at h
  all_goals try simp only [Option.bind_eq_bind, Option.bind_eq_some_iff, Option.pure_def,
    Option.some.injEq] at h
  · subst h; rfl
  · exact pGenfscon_sound h
  · exact pGenfscon_sound h
  · obtain ⟨y, hy, c, hc, rfl⟩ := h
    simp [Silent.tokens, pStr_sound hy, pContext_sound hc]
  · obtain ⟨y, hy, z, hz, c, hc, rfl⟩ := h
    simp [Silent.tokens, pStr_sound hy, pPortRange_sound hz, pContext_sound hc]
  · obtain ⟨y, hy, c, hc, d, hd, rfl⟩ := h
    simp [Silent.tokens, pStr_sound hy, pContext_sound hc, pContext_sound hd]
  · obtain ⟨c, hc, rfl⟩ := h
    simp [Silent.tokens, pContext_sound hc]
  · obtain ⟨c, hc, rfl⟩ := h
    simp [Silent.tokens, pContext_sound hc]
  · exact pFsUse_sound h
  · exact pFsUse_sound h
  · exact pFsUse_sound h
  · exact pGenUser_sound h
  · obtain ⟨y, hy, z, hz, w, hw, rfl⟩ := h
    simp [Silent.tokens, pStr_sound hy, pStr_sound hz, pTok_sound hw]
  · obtain ⟨a, ha, b, hb, y, hy, c, hc, d, hd, rfl⟩ := h
    simp [Silent.tokens, pTok_sound ha, pTok_sound hb, pM4String_sound hy, pTok_sound hc, pTok_sound hd]
  · cases h

theorem pSilent_complete (a : Silent) {r : List Token} (h : NotHead afterContext r) :
    pSilent (a.tokens ++ r) = some (a, r) := by
  cases a with
  | genfscon numeric fs path spec c =>
    have := pGenfscon_complete numeric fs path spec c h
    cases numeric <;> simp [Silent.tokens, pSilent] at this ⊢ <;> exact this
  | sid s c => simp [Silent.tokens, pSilent, pContext_complete c r h]
  | portcon s p c =>
    simp [Silent.tokens, pSilent, pContext_complete c r h,
      pPortRange_complete p (c.notHead (l := [.p .dash]) (by simp) (by simp) r)]
  | netifcon s c d =>
    simp [Silent.tokens, pSilent, pContext_complete d r h,
      pContext_complete c _ (d.notHead (l := afterContext) (by simp [tColon]) (by simp [tColon]) r)]
  | nodecon4 a b c => simp [Silent.tokens, pSilent, pContext_complete c r h]
  | nodecon6 a b c => simp [Silent.tokens, pSilent, pContext_complete c r h]
  | fsUse k hk s c =>
    have := pFsUse_complete k hk s c r
    rcases hk with rfl | rfl | rfl <;> simpa [Silent.tokens, pSilent] using this
  | genUser a b i l m n t =>
    have := pGenUser_complete a b i l m n t r
    simpa [genUser_tokens, pSilent] using this
  | typebounds s t => simp [Silent.tokens, pSilent]
  | refpolicywarn s => simp [Silent.tokens, pSilent, pM4String_complete]
  | comment => rfl

end Selint
