import Verif.Lemmas.LrStatements
/-!
# The parser's moves for blocks and lines
-/

namespace Selint
open Lr

variable {e : PlainFlavor} {σ : List Entry} {ms : MState} {t : Sptables} {ts : List Token}
  {c' : Config}


theorem optionalOpen_steps (cmd : Option Str) (line : Nat) {c : Option Addr} {ms₁ ms₂ ms₃ : MState}
    (h₀ : ms.heldToken cmd = (c, ms₁)) (h₁ : ms₁.beginBlock .optionalPolicy none line = .ok ms₂)
    (h₂ : ms₂.parentCommand c = .ok ms₃)
    (k : Run ⟨e, ⟨.n .optionalOpen, .none⟩ :: σ, none, ms₃, t⟩ ts c') :
    Run ⟨e, σ, none, ms, t⟩ (.kw .optionalPolicy :: tOpen :: tTick :: (commandTokens cmd ++ ts)) c' := by
  cases cmd with
  | none =>
    cases h₀
    cases h₂
    refine Run.shift rfl (Run.shift rfl (Run.shift rfl (?_)))
    refine Run.red3 (lhs := .optionalOpen) (act := [.beginBlock .optionalPolicy]) line ms₂ t .none
      (by decide) (by action [PlainFlavor.toFlavor, h₁]) ?_
    exact k
  | some s =>
    rcases hm : ms.token s with ⟨a, ms₀⟩
    simp only [MState.heldToken, hm, Prod.mk.injEq] at h₀
    obtain ⟨rfl, rfl⟩ := h₀
    simp only [MState.parentCommand] at h₂
    obtain ⟨ms₄, h₄, h₅⟩ := Res.bind_eq_ok h₂
    refine Run.shift rfl (Run.shift rfl (Run.shift rfl ((Run.shiftStr hm rfl ?_))))
    refine Run.red4 (lhs := .optionalOpen) (act := [.beginBlock .optionalPolicy, .saveParent 4, .free 4]) line ms₃ t .none
      (by decide) (by action [PlainFlavor.toFlavor, h₁, h₄, h₅]) ?_
    exact k

theorem booleanOpen_steps (cmd : Option Str) (line : Nat) {c : Option Addr} {ms₁ ms₂ ms₃ : MState}
    (h₀ : ms.heldToken cmd = (c, ms₁)) (h₁ : ms₁.beginBlock .booleanPolicy none line = .ok ms₂)
    (h₂ : ms₂.parentCommand c = .ok ms₃)
    (k : Run ⟨e, ⟨.n .booleanOpen, .none⟩ :: σ, none, ms₃, t⟩ ts c') :
    Run ⟨e, σ, none, ms, t⟩ (.kw .kwIf :: tOpen :: (commandTokens cmd ++ ts)) c' := by
  cases cmd with
  | none =>
    cases h₀
    cases h₂
    refine Run.shift rfl (Run.shift rfl (?_))
    refine Run.red2 (lhs := .booleanOpen) (act := [.beginBlock .booleanPolicy]) line ms₂ t .none
      (by decide) (by action [PlainFlavor.toFlavor, h₁]) ?_
    exact k
  | some s =>
    rcases hm : ms.token s with ⟨a, ms₀⟩
    simp only [MState.heldToken, hm, Prod.mk.injEq] at h₀
    obtain ⟨rfl, rfl⟩ := h₀
    simp only [MState.parentCommand] at h₂
    obtain ⟨ms₄, h₄, h₅⟩ := Res.bind_eq_ok h₂
    refine Run.shift rfl (Run.shift rfl ((Run.shiftStr hm rfl ?_)))
    refine Run.red3 (lhs := .booleanOpen) (act := [.beginBlock .booleanPolicy, .saveParent 3, .free 3]) line ms₃ t .none
      (by decide) (by action [PlainFlavor.toFlavor, h₁, h₄, h₅]) ?_
    exact k

theorem genRequireBegin_steps (cmd : Option Str) (line : Nat) {c : Option Addr} {ms₁ ms₂ ms₃ : MState}
    (h₀ : ms.heldToken cmd = (c, ms₁)) (h₁ : ms₁.beginGenRequire line = .ok ms₂)
    (h₂ : ms₂.parentCommand c = .ok ms₃)
    (k : Run ⟨e, ⟨.n .genRequireBegin, .none⟩ :: σ, none, ms₃, t⟩ ts c') :
    Run ⟨e, σ, none, ms, t⟩ (.kw .genRequire :: tOpen :: (commandTokens cmd ++ ts)) c' := by
  cases cmd with
  | none =>
    cases h₀
    cases h₂
    refine Run.shift rfl (Run.shift rfl (?_))
    refine Run.red2 (lhs := .genRequireBegin) (act := [.beginGenRequire]) line ms₂ t .none
      (by decide) (by action [h₁]) ?_
    exact k
  | some s =>
    rcases hm : ms.token s with ⟨a, ms₀⟩
    simp only [MState.heldToken, hm, Prod.mk.injEq] at h₀
    obtain ⟨rfl, rfl⟩ := h₀
    simp only [MState.parentCommand] at h₂
    obtain ⟨ms₄, h₄, h₅⟩ := Res.bind_eq_ok h₂
    refine Run.shift rfl (Run.shift rfl ((Run.shiftStr hm rfl ?_)))
    refine Run.red3 (lhs := .genRequireBegin) (act := [.beginGenRequire, .saveParent 3, .free 3]) line ms₃ t .none
      (by decide) (by action [h₁, h₄, h₅]) ?_
    exact k

/-! ## Require blocks -/

mutual

theorem ReqLines.steps (ls : ReqLines) {e : PlainFlavor} {σ : List Entry} {ms : MState}
    {t : Sptables} {ts : List Token} {c' : Config} {ms' : MState} (h : ls.run ms = .ok ms')
    (k : Run ⟨e, ⟨.n .requireLines, .none⟩ :: σ, none, ms', t⟩ ts c') :
    Run ⟨e, σ, none, ms, t⟩ (ls.tokens ++ ts) c' := by
  match ls with
  | .one l =>
    simp only [ReqLines.run] at h
    rw [ReqLines.tokens]
    refine l.steps h ?_
    refine Run.red1 (lhs := .requireLines) (act := []) 0 _ t _
      (by decide) rfl ?_
    exact k
  | .more ls l =>
    simp only [ReqLines.run] at h
    obtain ⟨ms₁, h₁, h⟩ := Res.bind_eq_ok h
    rw [ReqLines.tokens, List.append_assoc]
    refine ls.steps h₁ (l.steps h ?_)
    refine Run.red2 (lhs := .requireLines) (act := []) 0 _ t _
      (by decide) rfl ?_
    exact k

theorem ReqLine.steps (l : ReqLine) {e : PlainFlavor} {σ : List Entry} {ms : MState}
    {t : Sptables} {ts : List Token} {c' : Config} {ms' : MState} (h : l.run ms = .ok ms')
    (k : Run ⟨e, ⟨.n .requireLine, .none⟩ :: σ, none, ms', t⟩ ts c') :
    Run ⟨e, σ, none, ms, t⟩ (l.tokens ++ ts) c' := by
  match l with
  | .bare s =>
    simp only [ReqLine.run] at h
    rw [ReqLine.tokens]
    refine s.steps h ?_
    refine Run.red1 (lhs := .requireLine) (act := []) 0 _ t _
      (by decide) rfl ?_
    exact k
  | .withCommand s c =>
    simp only [ReqLine.run] at h
    obtain ⟨ms₁, h₁, h⟩ := Res.bind_eq_ok h
    rcases hm : ms₁.token c with ⟨a, ms₂⟩
    simp only [MState.command, hm] at h
    obtain ⟨m, h₂, h⟩ := Res.bind_eq_ok h
    rw [ReqLine.tokens, List.append_assoc]
    refine s.steps h₁ (Run.shiftStr hm rfl ?_)
    refine Run.red2 (lhs := .requireLine) (act := [.saveCommand 2, .free 2]) 0 ms' t .none
      (by decide) (by action [h₂, h]) ?_
    exact k

theorem ReqStmt.steps (s : ReqStmt) {e : PlainFlavor} {σ : List Entry} {ms : MState}
    {t : Sptables} {ts : List Token} {c' : Config} {ms' : MState} (h : s.run ms = .ok ms')
    (k : Run ⟨e, ⟨.n .requireBare, .none⟩ :: σ, none, ms', t⟩ ts c') :
    Run ⟨e, σ, none, ms, t⟩ (s.tokens ++ ts) c' := by
  match s with
  | .decls line fl kw hk names =>
    simp only [ReqStmt.run] at h
    obtain ⟨⟨p, ms₁⟩, h₁, h₀⟩ := Res.bind_eq_ok h
    obtain ⟨ms₂, h₂, h₃⟩ := Res.bind_eq_ok h₀
    rw [ReqStmt.tokens, List.cons_append, List.append_assoc]
    cases fl <;> simp only [requireKeyword, Option.some.injEq, reduceCtorEq] at hk <;> subst hk <;>
      refine Run.shift rfl (names.steps h₁ (Run.shift rfl ?_))
    · skip
      refine Run.red3 (lhs := .requireBare) (act := [.declareAll .type 2, .freeList 2]) line ms' t .none
        (by decide) (by action [h₂, h₃]) ?_
      exact k
    · skip
      refine Run.red3 (lhs := .requireBare) (act := [.declareAll .attribute 2, .freeList 2]) line ms' t .none
        (by decide) (by action [h₂, h₃]) ?_
      exact k
    · skip
      refine Run.red3 (lhs := .requireBare) (act := [.declareAll .attributeRole 2, .freeList 2]) line ms' t .none
        (by decide) (by action [h₂, h₃]) ?_
      exact k
    · skip
      refine Run.red3 (lhs := .requireBare) (act := [.declareAll .role 2, .freeList 2]) line ms' t .none
        (by decide) (by action [h₂, h₃]) ?_
      exact k
    · skip
      refine Run.red3 (lhs := .requireBare) (act := [.declareAll .bool 2, .freeList 2]) line ms' t .none
        (by decide) (by action [h₂, h₃]) ?_
      exact k
  | .cls line n l =>
    rcases hm : ms.token n with ⟨a, ms₁⟩
    simp only [ReqStmt.run, hm] at h
    obtain ⟨⟨p, ms₂⟩, h₂, h⟩ := Res.bind_eq_ok h
    obtain ⟨ms₃, h₃, h⟩ := Res.bind_eq_ok h
    simp only [ReqStmt.tokens, List.append_assoc, List.cons_append, List.nil_append]
    refine Run.shift rfl (Run.shiftStr hm rfl (l.steps h₂ (Run.shift rfl ?_)))
    refine Run.red4 (lhs := .requireBare) (act := [.declareWith .cls 2 3, .free 2]) line ms' t .none
      (by decide) (by action [h₃, h]) ?_
    exact k
  | .ifdef line negated quoted cond body =>
    rcases hm : ms.token cond with ⟨a, ms₁⟩
    simp only [ReqStmt.run, hm] at h
    obtain ⟨ms₂, h₂, h⟩ := Res.bind_eq_ok h
    obtain ⟨ms₃, h₃, h⟩ := Res.bind_eq_ok h
    obtain ⟨ms₄, h₄, h⟩ := Res.bind_eq_ok h
    have key : Run ⟨e, ⟨.n .ifOrIfn, .none⟩ :: σ, none, ms, t⟩
        (tOpen :: tTick :: .string cond :: tQuote :: tComma ::
          ((if quoted then tTick :: (body.tokens ++ [tQuote]) else body.tokens) ++ tClose :: ts))
        c' := by
      refine Run.shift rfl (Run.shift rfl (Run.shiftStr hm rfl (Run.shift rfl (Run.shift rfl ?_))))
      cases quoted with
      | true =>
        simp only [if_true, List.cons_append, List.append_assoc, List.nil_append]
        refine Run.shift rfl ?_
        refine Run.mid (lhs := .midReqIfdefQuoted) (before := [.n .ifOrIfn, op, bt, str, sq, co, bt]) (act := [.beginBlock .ifdef]) line ms₂ .none
          (by decide) rfl (by action [PlainFlavor.toFlavor, h₂]) ?_
        refine body.steps h₃ (Run.shift rfl (Run.shift rfl ?_))
        refine Run.red11 (lhs := .requireBare) (act := [.endBlock .ifdef, .free 4]) line ms' t .none
          (by decide) (by action [h₄, h]) ?_
        exact k
      | false =>
        simp only [Bool.false_eq_true, if_false]
        refine Run.mid (lhs := .midReqIfdef) (before := [.n .ifOrIfn, op, bt, str, sq, co]) (act := [.beginBlock .ifdef]) line ms₂ .none
          (by decide) rfl (by action [PlainFlavor.toFlavor, h₂]) ?_
        refine body.steps h₃ (Run.shift rfl ?_)
        refine Run.red9 (lhs := .requireBare) (act := [.endBlock .ifdef, .free 4]) line ms' t .none
          (by decide) (by action [h₄, h]) ?_
        exact k
    simp only [ReqStmt.tokens, List.append_assoc, List.cons_append, List.nil_append]
    cases negated with
    | false =>
      refine Run.shift rfl ?_
      refine Run.red1 (lhs := .ifOrIfn) (act := []) 0 _ t _
        (by decide) rfl ?_
      exact key
    | true =>
      refine Run.shift rfl ?_
      refine Run.red1 (lhs := .ifOrIfn) (act := []) 0 _ t _
        (by decide) rfl ?_
      exact key
  | .comment =>
    simp only [ReqStmt.run] at h
    cases h
    refine Run.shift rfl ?_
    refine Run.red1 (lhs := .requireBare) (act := []) 0 _ t _
      (by decide) rfl ?_
    exact k

end

/-! ## Definitions -/

theorem defineName_steps (quoted : Bool) (s : Str) {m' : Mem} (h : ms.mem.dropToken s = .ok m')
    (k : Run ⟨e, ⟨.n .defineName, .none⟩ :: σ, none, { ms with mem := m' }, t⟩ ts c') :
    Run ⟨e, σ, none, ms, t⟩ (defineNameTokens quoted s ++ ts) c' := by
  rcases hm : ms.mem.malloc (.bytes s) with ⟨a₀, m₀⟩
  simp only [Mem.dropToken, hm] at h
  cases quoted with
  | true =>
    refine Run.shift rfl (Run.shiftStr (token_of hm) rfl (Run.shift rfl ?_))
    refine Run.red3 (lhs := .defineName) (act := [.free 2]) 0 { ms with mem := m' } t .none
      (by decide) (by action [MState.free, h]) ?_
    exact k
  | false =>
    refine Run.shiftStr (token_of hm) rfl ?_
    refine Run.red1 (lhs := .defineName) (act := [.free 1]) 0 { ms with mem := m' } t .none
      (by decide) (by action [MState.free, h]) ?_
    exact k

theorem defineContent_steps (c : DefineContent) {m' : Mem} (h : c.run ms.mem = .ok m')
    (k : Run ⟨e, ⟨.n .defineContent, .none⟩ :: σ, none, { ms with mem := m' }, t⟩ ts c') :
    Run ⟨e, σ, none, ms, t⟩ (c.tokens ++ ts) c' := by
  cases c with
  | none =>
    cases h
    refine Run.mid (lhs := .defineContent) (before := []) (act := []) 0 _ _ (by decide) rfl rfl ?_
    exact k
  | empty =>
    cases h
    refine Run.shift rfl ?_
    refine Run.mid (lhs := .defineExpansion) (before := []) (act := []) 0 _ _
      (by decide) rfl rfl ?_
    refine Run.red2 (lhs := .defineContent) (act := []) 0 _ t _
      (by decide) rfl ?_
    exact k
  | text s =>
    simp only [DefineContent.tokens, List.append_assoc, List.cons_append, List.nil_append]
    refine Run.shift rfl (Run.shift rfl (s.steps h (Run.shift rfl ?_)))
    refine Run.red3 (lhs := .defineExpansion) (act := []) 0 _ t _
      (by decide) rfl ?_
    refine Run.red2 (lhs := .defineContent) (act := []) 0 _ t _
      (by decide) rfl ?_
    exact k
  | word s =>
    rcases hm : ms.mem.malloc (.bytes s) with ⟨a₀, m₀⟩
    simp only [DefineContent.run, Mem.dropToken, hm] at h
    refine Run.shift rfl (Run.shiftStr (token_of hm) rfl ?_)
    refine Run.red1 (lhs := .defineExpansion) (act := [.free 1]) 0 { ms with mem := m' } t .none
      (by decide) (by action [MState.free, h]) ?_
    refine Run.red2 (lhs := .defineContent) (act := []) 0 _ t _
      (by decide) rfl ?_
    exact k

/-! ## Lines -/

mutual

theorem Lines.steps (ls : Lines) {e : PlainFlavor} {σ : List Entry} {ms : MState}
    {t : Sptables} {ts : List Token} {c' : Config} {ms' : MState} (h : ls.run ms = .ok ms')
    (k : Run ⟨e, ⟨.n .lines, .none⟩ :: σ, none, ms', t⟩ ts c') :
    Run ⟨e, σ, none, ms, t⟩ (ls.tokens ++ ts) c' := by
  match ls with
  | .one l =>
    simp only [Lines.run] at h
    rw [Lines.tokens]
    refine l.steps h ?_
    refine Run.red1 (lhs := .lines) (act := []) 0 _ t _
      (by decide) rfl ?_
    exact k
  | .more ls l =>
    simp only [Lines.run] at h
    obtain ⟨ms₁, h₁, h⟩ := Res.bind_eq_ok h
    rw [Lines.tokens, List.append_assoc]
    refine ls.steps h₁ (l.steps h ?_)
    refine Run.red2 (lhs := .lines) (act := []) 0 _ t _
      (by decide) rfl ?_
    exact k

theorem Line.steps (l : Line) {e : PlainFlavor} {σ : List Entry} {ms : MState}
    {t : Sptables} {ts : List Token} {c' : Config} {ms' : MState} (h : l.run ms = .ok ms')
    (k : Run ⟨e, ⟨.n .line, .none⟩ :: σ, none, ms', t⟩ ts c') :
    Run ⟨e, σ, none, ms, t⟩ (l.tokens ++ ts) c' := by
  match l with
  | .bare s =>
    simp only [Line.run] at h
    rw [Line.tokens]
    refine s.steps h ?_
    refine Run.red1 (lhs := .line) (act := []) 0 _ t _
      (by decide) rfl ?_
    exact k
  | .withCommand s c =>
    simp only [Line.run] at h
    obtain ⟨ms₁, h₁, h⟩ := Res.bind_eq_ok h
    rcases hm : ms₁.token c with ⟨a, ms₂⟩
    simp only [MState.command, hm] at h
    obtain ⟨m, h₂, h⟩ := Res.bind_eq_ok h
    rw [Line.tokens, List.append_assoc]
    refine s.steps h₁ (Run.shiftStr hm rfl ?_)
    refine Run.red2 (lhs := .line) (act := [.saveCommand 2, .free 2]) 0 ms' t .none
      (by decide) (by action [h₂, h]) ?_
    exact k

theorem Stmt.steps (s : Stmt) {e : PlainFlavor} {σ : List Entry} {ms : MState}
    {t : Sptables} {ts : List Token} {c' : Config} {ms' : MState} (h : s.run ms = .ok ms')
    (k : Run ⟨e, ⟨.n .bareLine, .none⟩ :: σ, none, ms', t⟩ ts c') :
    Run ⟨e, σ, none, ms, t⟩ (s.tokens ++ ts) c' := by
  match s with
  | .silent s =>
    simp only [Stmt.run] at h
    rw [Stmt.tokens]
    exact s.steps h k
  | .simple line s =>
    simp only [Stmt.run] at h
    rw [Stmt.tokens]
    exact s.steps line h k
  | .optional line cmd body =>
    rcases h₀ : ms.heldToken cmd with ⟨c, ms₀⟩
    simp only [Stmt.run, h₀] at h
    obtain ⟨ms₁, h₁, h⟩ := Res.bind_eq_ok h
    obtain ⟨ms₂, h₂, h⟩ := Res.bind_eq_ok h
    obtain ⟨ms₃, h₃, h⟩ := Res.bind_eq_ok h
    simp only [Stmt.tokens, List.append_assoc, List.cons_append, List.nil_append]
    refine optionalOpen_steps cmd line h₀ h₁ h₂ (body.steps h₃ (Run.shift rfl (Run.shift rfl ?_)))
    refine Run.red4 (lhs := .optionalBlock) (act := [.endBlock .optionalPolicy]) 0 ms' t .none
      (by decide) (by action [h]) ?_
    refine Run.red1 (lhs := .bareLine) (act := []) 0 _ t _
      (by decide) rfl ?_
    exact k
  | .optionalEmpty line cmd =>
    rcases h₀ : ms.heldToken cmd with ⟨c, ms₀⟩
    simp only [Stmt.run, h₀] at h
    obtain ⟨ms₁, h₁, h⟩ := Res.bind_eq_ok h
    obtain ⟨ms₂, h₂, h⟩ := Res.bind_eq_ok h
    simp only [Stmt.tokens, List.append_assoc, List.cons_append, List.nil_append]
    refine optionalOpen_steps cmd line h₀ h₁ h₂ (Run.shift rfl (Run.shift rfl ?_))
    refine Run.red3 (lhs := .optionalBlock) (act := [.endBlock .optionalPolicy]) 0 ms' t .none
      (by decide) (by action [h]) ?_
    refine Run.red1 (lhs := .bareLine) (act := []) 0 _ t _
      (by decide) rfl ?_
    exact k
  | .optionalElse line cmd body elseLine els =>
    rcases h₀ : ms.heldToken cmd with ⟨c, ms₀⟩
    simp only [Stmt.run, h₀] at h
    obtain ⟨ms₁, h₁, h⟩ := Res.bind_eq_ok h
    obtain ⟨ms₂, h₂, h⟩ := Res.bind_eq_ok h
    obtain ⟨ms₃, h₃, h⟩ := Res.bind_eq_ok h
    obtain ⟨ms₄, h₄, h⟩ := Res.bind_eq_ok h
    obtain ⟨ms₅, h₅, h⟩ := Res.bind_eq_ok h
    obtain ⟨ms₆, h₆, h⟩ := Res.bind_eq_ok h
    simp only [Stmt.tokens, List.append_assoc, List.cons_append, List.nil_append]
    refine optionalOpen_steps cmd line h₀ h₁ h₂ (body.steps h₃ (Run.shift rfl (Run.shift rfl ?_)))
    refine Run.mid (lhs := .midOptionalEnd) (before := [.n .optionalOpen, .n .lines, sq, co]) (act := [.endBlock .optionalPolicy]) 0 ms₄ .none
      (by decide) rfl (by action [h₄]) ?_
    refine Run.shift rfl ?_
    refine Run.mid (lhs := .midOptionalElse) (before := [.n .optionalOpen, .n .lines, sq, co, .n .midOptionalEnd, bt]) (act := [.beginBlock .optionalElse]) elseLine ms₅ .none
      (by decide) rfl (by action [PlainFlavor.toFlavor, h₅]) ?_
    refine els.steps h₆ (Run.shift rfl (Run.shift rfl ?_))
    refine Run.red10 (lhs := .optionalBlock) (act := [.endBlock .optionalElse]) 0 ms' t .none
      (by decide) (by action [h]) ?_
    refine Run.red1 (lhs := .bareLine) (act := []) 0 _ t _
      (by decide) rfl ?_
    exact k
  | .genRequire line cmd cmd' body =>
    rcases h₀ : ms.heldToken cmd with ⟨c, ms₀⟩
    simp only [Stmt.run, h₀] at h
    obtain ⟨ms₁, h₁, h⟩ := Res.bind_eq_ok h
    obtain ⟨ms₂, h₂, h⟩ := Res.bind_eq_ok h
    simp only [Stmt.tokens, List.append_assoc, List.cons_append, List.nil_append]
    refine genRequireBegin_steps cmd line h₀ h₁ h₂ (Run.shift rfl ?_)
    cases cmd' with
    | none =>
      simp only [MState.heldToken, MState.lateCommand] at h
      obtain ⟨ms₃, h₃, h⟩ := Res.bind_eq_ok h
      obtain ⟨ms₄, h₄, h⟩ := Res.bind_eq_ok h
      cases h
      refine body.steps h₃ (Run.shift rfl (Run.shift rfl ?_))
      refine Run.red5 (lhs := .require) (act := [.endGenRequire false]) 0 ms' t .none
        (by decide) (by action [h₄]) ?_
      refine Run.red1 (lhs := .bareLine) (act := []) 0 _ t _
        (by decide) rfl ?_
      exact k
    | some s =>
      rcases hm : ms₂.token s with ⟨a, ms₅⟩
      simp only [MState.heldToken, hm, MState.lateCommand] at h
      obtain ⟨ms₃, h₃, h⟩ := Res.bind_eq_ok h
      obtain ⟨ms₄, h₄, h⟩ := Res.bind_eq_ok h
      obtain ⟨m, h₆, h⟩ := Res.bind_eq_ok h
      refine Run.shiftStr hm rfl (body.steps h₃ (Run.shift rfl (Run.shift rfl ?_)))
      refine Run.red6 (lhs := .require) (act := [.endGenRequire false, .saveCommand 3, .free 3]) 0 ms' t .none
        (by decide) (by action [h₄, h₆, h]) ?_
      refine Run.red1 (lhs := .bareLine) (act := []) 0 _ t _
        (by decide) rfl ?_
      exact k
  | .genRequireUnquoted line cmd body =>
    rcases h₀ : ms.heldToken cmd with ⟨c, ms₀⟩
    simp only [Stmt.run, h₀] at h
    obtain ⟨ms₁, h₁, h⟩ := Res.bind_eq_ok h
    obtain ⟨ms₂, h₂, h⟩ := Res.bind_eq_ok h
    obtain ⟨ms₃, h₃, h⟩ := Res.bind_eq_ok h
    simp only [Stmt.tokens, List.append_assoc, List.cons_append, List.nil_append]
    refine genRequireBegin_steps cmd line h₀ h₁ h₂ (body.steps h₃ (Run.shift rfl ?_))
    refine Run.red3 (lhs := .require) (act := [.endGenRequire true]) 0 ms' t .none
      (by decide) (by action [h]) ?_
    refine Run.red1 (lhs := .bareLine) (act := []) 0 _ t _
      (by decide) rfl ?_
    exact k
  | .require line cmd body =>
    simp only [Stmt.tokens, List.append_assoc, List.cons_append, List.nil_append]
    cases cmd with
    | none =>
      simp only [Stmt.run, MState.heldToken, MState.earlyCommand, MState.freeHeld, Res.bind_ok] at h
      obtain ⟨ms₁, h₁, h⟩ := Res.bind_eq_ok h
      obtain ⟨ms₂, h₂, h⟩ := Res.bind_eq_ok h
      obtain ⟨ms₃, h₃, h⟩ := Res.bind_eq_ok h
      cases h
      refine Run.shift rfl (Run.shift rfl ?_)
      refine Run.mid (lhs := .midRequire) (before := [K .require, lc]) (act := [.beginBlock .require]) line ms₁ .none
        (by decide) rfl (by action [PlainFlavor.toFlavor, h₁]) ?_
      refine body.steps h₂ (Run.shift rfl ?_)
      refine Run.red5 (lhs := .require) (act := [.endBlock .require]) 0 ms' t .none
        (by decide) (by action [h₃]) ?_
      refine Run.red1 (lhs := .bareLine) (act := []) 0 _ t _
        (by decide) rfl ?_
      exact k
    | some s =>
      rcases hm : ms.token s with ⟨a, ms₅⟩
      simp only [Stmt.run, MState.heldToken, hm, MState.earlyCommand, MState.freeHeld] at h
      obtain ⟨ms₁, h₁, h⟩ := Res.bind_eq_ok h
      obtain ⟨ms₂, h₂, h⟩ := Res.bind_eq_ok h
      obtain ⟨ms₃, h₃, h⟩ := Res.bind_eq_ok h
      obtain ⟨ms₄, h₄, h⟩ := Res.bind_eq_ok h
      refine Run.shift rfl (Run.shift rfl (Run.shiftStr hm rfl ?_))
      refine Run.mid (lhs := .midRequireCommand) (before := [K .require, lc, cmd]) (act := [.beginBlock .require, .saveParent 3]) line ms₂ .none
        (by decide) rfl (by action [PlainFlavor.toFlavor, h₁, h₂]) ?_
      refine body.steps h₃ (Run.shift rfl ?_)
      refine Run.red6 (lhs := .require) (act := [.endBlock .require, .free 3]) 0 ms' t .none
        (by decide) (by action [h₄, h]) ?_
      refine Run.red1 (lhs := .bareLine) (act := []) 0 _ t _
        (by decide) rfl ?_
      exact k
  | .ifdef line negated cond args =>
    rcases hm : ms.token cond with ⟨a, ms₁⟩
    simp only [Stmt.run, hm] at h
    obtain ⟨ms₂, h₂, h⟩ := Res.bind_eq_ok h
    obtain ⟨ms₃, h₃, h⟩ := Res.bind_eq_ok h
    obtain ⟨ms₄, h₄, h⟩ := Res.bind_eq_ok h
    have key : Run ⟨e, ⟨.n .ifOrIfn, .none⟩ :: σ, none, ms, t⟩
        (tOpen :: tTick :: .string cond :: tQuote :: tComma :: (args.tokens ++ tClose :: ts)) c' := by
      refine Run.shift rfl (Run.shift rfl (Run.shiftStr hm rfl (Run.shift rfl (Run.shift rfl ?_))))
      refine Run.mid (lhs := .midIfdef) (before := [.n .ifOrIfn, op, bt, str, sq, co]) (act := [.beginBlock .ifdef]) line ms₂ .none
        (by decide) rfl (by action [PlainFlavor.toFlavor, h₂]) ?_
      refine args.steps h₃ (Run.shift rfl ?_)
      refine Run.red9 (lhs := .ifdef) (act := [.endBlock .ifdef, .free 4]) line ms' t .none
        (by decide) (by action [h₄, h]) ?_
      refine Run.red1 (lhs := .m4Call) (act := []) 0 _ t _
        (by decide) rfl ?_
      refine Run.red1 (lhs := .bareLine) (act := []) 0 _ t _
        (by decide) rfl ?_
      exact k
    simp only [Stmt.tokens, List.append_assoc, List.cons_append, List.nil_append]
    cases negated with
    | false =>
      refine Run.shift rfl ?_
      refine Run.red1 (lhs := .ifOrIfn) (act := []) 0 _ t _
        (by decide) rfl ?_
      exact key
    | true =>
      refine Run.shift rfl ?_
      refine Run.red1 (lhs := .ifOrIfn) (act := []) 0 _ t _
        (by decide) rfl ?_
      exact key
  | .ifelse line args =>
    simp only [Stmt.run] at h
    obtain ⟨ms₁, h₁, h⟩ := Res.bind_eq_ok h
    obtain ⟨ms₂, h₂, h⟩ := Res.bind_eq_ok h
    simp only [Stmt.tokens, List.append_assoc, List.cons_append, List.nil_append]
    refine Run.shift rfl (Run.shift rfl ?_)
    refine Run.mid (lhs := .midIfelse) (before := [K .ifelse, op]) (act := [.beginBlock .ifelse]) line ms₁ .none
      (by decide) rfl (by action [PlainFlavor.toFlavor, h₁]) ?_
    refine args.steps h₂ (Run.shift rfl ?_)
    refine Run.red5 (lhs := .ifelse) (act := [.endBlock .ifelse]) 0 ms' t .none
      (by decide) (by action [h]) ?_
    refine Run.red1 (lhs := .m4Call) (act := []) 0 _ t _
      (by decide) rfl ?_
    refine Run.red1 (lhs := .bareLine) (act := []) 0 _ t _
      (by decide) rfl ?_
    exact k
  | .userdebugOrEng body =>
    simp only [Stmt.run] at h
    simp only [Stmt.tokens, List.append_assoc, List.cons_append, List.nil_append]
    refine Run.shift rfl (Run.shift rfl (Run.shift rfl (body.steps h (Run.shift rfl
      (Run.shift rfl ?_)))))
    refine Run.red6 (lhs := .userdebugOrEng) (act := []) 0 _ t _
      (by decide) rfl ?_
    refine Run.red1 (lhs := .m4Call) (act := []) 0 _ t _
      (by decide) rfl ?_
    refine Run.red1 (lhs := .bareLine) (act := []) 0 _ t _
      (by decide) rfl ?_
    exact k
  | .tunable line quoted cond args =>
    simp only [Stmt.run] at h
    obtain ⟨ms₁, h₁, h₅⟩ := Res.bind_eq_ok h
    obtain ⟨ms₂, h₂, h₆⟩ := Res.bind_eq_ok h₅
    obtain ⟨ms₃, h₃, h₇⟩ := Res.bind_eq_ok h₆
    obtain ⟨m₂, h₂', e₂⟩ := quiet_ok h₂
    subst e₂
    simp only [Stmt.tokens, List.append_assoc, List.cons_append, List.nil_append]
    cases quoted with
    | true =>
      simp only [if_true, List.cons_append, List.append_assoc, List.nil_append]
      refine Run.shift rfl (Run.shift rfl (Run.shift rfl ?_))
      refine Run.mid (lhs := .midTunableQuoted) (before := [K .tunablePolicy, op, bt]) (act := [.beginBlock .tunablePolicy]) line ms₁ .none
        (by decide) rfl (by action [PlainFlavor.toFlavor, h₁]) ?_
      refine cond.steps h₂' (Run.shift rfl (Run.shift rfl (args.steps h₃ (Run.shift rfl ?_))))
      refine Run.red9 (lhs := .tunableBlock) (act := [.endBlock .tunablePolicy]) 0 ms' t .none
        (by decide) (by action [h₇]) ?_
      refine Run.red1 (lhs := .condExpr) (act := []) 0 _ t _
        (by decide) rfl ?_
      refine Run.red1 (lhs := .bareLine) (act := []) 0 _ t _
        (by decide) rfl ?_
      exact k
    | false =>
      simp only [Bool.false_eq_true, if_false]
      refine Run.shift rfl (Run.shift rfl ?_)
      refine Run.mid (lhs := .midTunable) (before := [K .tunablePolicy, op]) (act := [.beginBlock .tunablePolicy]) line ms₁ .none
        (by decide) rfl (by action [PlainFlavor.toFlavor, h₁]) ?_
      refine cond.steps h₂' (Run.shift rfl (args.steps h₃ (Run.shift rfl ?_)))
      refine Run.red7 (lhs := .tunableBlock) (act := [.endBlock .tunablePolicy]) 0 ms' t .none
        (by decide) (by action [h₇]) ?_
      refine Run.red1 (lhs := .condExpr) (act := []) 0 _ t _
        (by decide) rfl ?_
      refine Run.red1 (lhs := .bareLine) (act := []) 0 _ t _
        (by decide) rfl ?_
      exact k
  | .boolean line cmd cond body =>
    rcases h₀ : ms.heldToken cmd with ⟨c, ms₀⟩
    simp only [Stmt.run, h₀] at h
    obtain ⟨ms₁, h₁, g₁⟩ := Res.bind_eq_ok h
    obtain ⟨ms₂, h₂, g₂⟩ := Res.bind_eq_ok g₁
    obtain ⟨ms₃, h₃, g₃⟩ := Res.bind_eq_ok g₂
    obtain ⟨ms₄, h₄, g₄⟩ := Res.bind_eq_ok g₃
    obtain ⟨m₂, h₃', e₂⟩ := quiet_ok h₃
    subst e₂
    simp only [Stmt.tokens, List.append_assoc, List.cons_append, List.nil_append]
    refine booleanOpen_steps cmd line h₀ h₁ h₂ (cond.steps h₃' (Run.shift rfl (Run.shift rfl
      (body.steps h₄ (Run.shift rfl ?_)))))
    refine Run.red6 (lhs := .booleanBlock) (act := [.endBlock .booleanPolicy]) 0 ms' t .none
      (by decide) (by action [g₄]) ?_
    refine Run.red1 (lhs := .condExpr) (act := []) 0 _ t _
      (by decide) rfl ?_
    refine Run.red1 (lhs := .bareLine) (act := []) 0 _ t _
      (by decide) rfl ?_
    exact k
  | .booleanElse line cmd cond body els =>
    rcases h₀ : ms.heldToken cmd with ⟨c, ms₀⟩
    simp only [Stmt.run, h₀] at h
    obtain ⟨ms₁, h₁, g₁⟩ := Res.bind_eq_ok h
    obtain ⟨ms₂, h₂, g₂⟩ := Res.bind_eq_ok g₁
    obtain ⟨ms₃, h₃, g₃⟩ := Res.bind_eq_ok g₂
    obtain ⟨ms₄, h₄, g₄⟩ := Res.bind_eq_ok g₃
    obtain ⟨ms₅, h₅, g₅⟩ := Res.bind_eq_ok g₄
    obtain ⟨m₂, h₃', e₂⟩ := quiet_ok h₃
    subst e₂
    simp only [Stmt.tokens, List.append_assoc, List.cons_append, List.nil_append]
    refine booleanOpen_steps cmd line h₀ h₁ h₂ (cond.steps h₃' (Run.shift rfl (Run.shift rfl
      (body.steps h₄ (Run.shift rfl (Run.shift rfl (Run.shift rfl (els.steps h₅
        (Run.shift rfl ?_)))))))))
    refine Run.red10 (lhs := .booleanBlock) (act := [.endBlock .booleanPolicy]) 0 ms' t .none
      (by decide) (by action [g₅]) ?_
    refine Run.red1 (lhs := .condExpr) (act := []) 0 _ t _
      (by decide) rfl ?_
    refine Run.red1 (lhs := .bareLine) (act := []) 0 _ t _
      (by decide) rfl ?_
    exact k
  | .define line quoted name content =>
    simp only [Stmt.run] at h
    obtain ⟨ms₁, h₁, g₁⟩ := Res.bind_eq_ok h
    obtain ⟨ms₂, h₂, g₂⟩ := Res.bind_eq_ok g₁
    obtain ⟨ms₃, h₃, g₃⟩ := Res.bind_eq_ok g₂
    obtain ⟨m₂, h₂', e₂⟩ := quiet_ok h₂
    subst e₂
    obtain ⟨m₃, h₃', e₃⟩ := quiet_ok h₃
    subst e₃
    simp only [Stmt.tokens, List.append_assoc, List.cons_append, List.nil_append]
    refine Run.shift rfl (Run.shift rfl ?_)
    refine Run.mid (lhs := .midDefine) (before := [K .define, op]) (act := [.beginBlock .define]) line ms₁ .none
      (by decide) rfl (by action [PlainFlavor.toFlavor, h₁]) ?_
    refine defineName_steps quoted name h₂' (defineContent_steps content h₃' (Run.shift rfl ?_))
    refine Run.red6 (lhs := .define) (act := [.endBlock .define]) 0 ms' t .none
      (by decide) (by action [g₃]) ?_
    refine Run.red1 (lhs := .bareLine) (act := []) 0 _ t _
      (by decide) rfl ?_
    exact k

theorem M4Args.steps (as : M4Args) {e : PlainFlavor} {σ : List Entry} {ms : MState}
    {t : Sptables} {ts : List Token} {c' : Config} {ms' : MState} (h : as.run ms = .ok ms')
    (k : Run ⟨e, ⟨.n .m4Args, .none⟩ :: σ, none, ms', t⟩ ts c') :
    Run ⟨e, σ, none, ms, t⟩ (as.tokens ++ ts) c' := by
  match as with
  | .one line a =>
    simp only [M4Args.run] at h
    obtain ⟨ms₁, h₁, h⟩ := Res.bind_eq_ok h
    obtain ⟨ms₂, h₂, h⟩ := Res.bind_eq_ok h
    rw [M4Args.tokens]
    refine Run.mid (lhs := .midFirstArg) (before := []) (act := [.beginBlock .m4Arg]) line ms₁ .none
      (by decide) rfl (by action [PlainFlavor.toFlavor, h₁]) ?_
    refine a.steps h₂ ?_
    refine Run.red2 (lhs := .m4Args) (act := [.endBlock .m4Arg]) 0 ms' t .none
      (by decide) (by action [h]) ?_
    exact k
  | .more as line a =>
    simp only [M4Args.run] at h
    obtain ⟨ms₁, h₁, h⟩ := Res.bind_eq_ok h
    obtain ⟨ms₂, h₂, h⟩ := Res.bind_eq_ok h
    obtain ⟨ms₃, h₃, h⟩ := Res.bind_eq_ok h
    simp only [M4Args.tokens, List.append_assoc, List.cons_append]
    refine as.steps h₁ (Run.shift rfl ?_)
    refine Run.mid (lhs := .midNextArg) (before := [.n .m4Args, co]) (act := [.beginBlock .m4Arg]) line ms₂ .none
      (by decide) rfl (by action [PlainFlavor.toFlavor, h₂]) ?_
    refine a.steps h₃ ?_
    refine Run.red4 (lhs := .m4Args) (act := [.endBlock .m4Arg]) 0 ms' t .none
      (by decide) (by action [h]) ?_
    exact k

theorem M4Argument.steps (a : M4Argument) {e : PlainFlavor} {σ : List Entry} {ms : MState}
    {t : Sptables} {ts : List Token} {c' : Config} {ms' : MState} (h : a.run ms = .ok ms')
    (k : Run ⟨e, ⟨.n .m4Argument, .none⟩ :: σ, none, ms', t⟩ ts c') :
    Run ⟨e, σ, none, ms, t⟩ (a.tokens ++ ts) c' := by
  match a with
  | .empty =>
    simp only [M4Argument.run] at h
    cases h
    refine Run.mid (lhs := .m4Argument) (before := []) (act := []) 0 _ _
      (by decide) rfl rfl ?_
    exact k
  | .emptyQuoted =>
    simp only [M4Argument.run] at h
    cases h
    refine Run.shift rfl (Run.shift rfl ?_)
    refine Run.red2 (lhs := .m4Argument) (act := []) 0 _ t _
      (by decide) rfl ?_
    exact k
  | .quoted body =>
    simp only [M4Argument.run] at h
    simp only [M4Argument.tokens, List.append_assoc, List.cons_append, List.nil_append]
    refine Run.shift rfl (body.steps h (Run.shift rfl ?_))
    refine Run.red3 (lhs := .m4Argument) (act := []) 0 _ t _
      (by decide) rfl ?_
    exact k
  | .word s =>
    simp only [M4Argument.run] at h
    obtain ⟨m₂, h₂, e₂⟩ := quiet_ok h
    subst e₂
    rcases hm : ms.mem.malloc (.bytes s) with ⟨a₀, m₀⟩
    simp only [Mem.dropToken, hm] at h₂
    refine Run.shiftStr (token_of hm) rfl ?_
    refine Run.red1 (lhs := .m4Argument) (act := [.free 1]) 0 { ms with mem := m₂ } t .none
      (by decide) (by action [MState.free, h₂]) ?_
    exact k

end

end Selint
