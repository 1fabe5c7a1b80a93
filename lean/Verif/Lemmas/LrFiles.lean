import Verif.Lemmas.LrBlocks
/-!
# The parser's moves for files
-/

namespace Selint
open Lr

variable {e : PlainFlavor} {σ : List Entry} {ms : MState} {t : Sptables} {ts : List Token}
  {c' : Config}

/-! ## Comments and headers -/

theorem comments_steps (n : Nat) (ns : List Nat) {σ : List Entry} {ms ms' : MState}
    (h : runComments (n :: ns) ms = .ok ms')
    (k : Run ⟨e, ⟨.n .comments, .none⟩ :: σ, none, ms', t⟩ ts c') :
    Run ⟨e, σ, none, ms, t⟩ ((n :: ns).map (fun _ => Token.comment) ++ ts) c' := by
  induction ns generalizing n σ ms with
  | nil =>
    obtain ⟨ms₁, h₁, h₂⟩ := Res.bind_eq_ok h
    cases h₂
    refine Run.shift rfl ?_
    refine Run.red1 (lhs := .comment) (act := [.insertComment]) n ms' t .none
      (by decide) (by action [h₁]) ?_
    refine Run.red1 (lhs := .comments) (act := []) 0 _ t _
      (by decide) rfl ?_
    exact k
  | cons n' ns ih =>
    obtain ⟨ms₁, h₁, h₂⟩ := Res.bind_eq_ok h
    refine Run.shift rfl ?_
    refine Run.red1 (lhs := .comment) (act := [.insertComment]) n ms₁ t .none
      (by decide) (by action [h₁]) ?_
    refine ih n' h₂ ?_
    refine Run.red2 (lhs := .comments) (act := []) 0 _ t _
      (by decide) rfl ?_
    exact k

theorem headerVersion_steps (numberOnly : Bool) (s : Str) {m' : Mem}
    (h : ms.mem.dropToken s = .ok m')
    (k : Run ⟨e, ⟨.n .headerVersion, .none⟩ :: σ, none, { ms with mem := m' }, t⟩ ts c') :
    Run ⟨e, σ, none, ms, t⟩
      ((if numberOnly then .number s else .versionNo s : Token) :: ts) c' := by
  rcases hm : ms.mem.malloc (.bytes s) with ⟨a₀, m₀⟩
  simp only [Mem.dropToken, hm] at h
  cases numberOnly with
  | true =>
    refine Run.shiftStr (token_of hm) rfl ?_
    refine Run.red1 (lhs := .headerVersion) (act := [.free 1]) 0 { ms with mem := m' } t .none
      (by decide) (by action [MState.free, h]) ?_
    exact k
  | false =>
    refine Run.shiftStr (token_of hm) rfl ?_
    refine Run.red1 (lhs := .headerVersion) (act := [.free 1]) 0 { ms with mem := m' } t .none
      (by decide) (by action [MState.free, h]) ?_
    exact k

theorem Header.steps (hd : Header) {ms' : MState} (he : e = .teFile) (h : hd.run ms = .ok ms')
    (k : Run ⟨e, ⟨.n .header, .none⟩ :: σ, none, ms', t⟩ ts c') :
    Run ⟨e, σ, none, ms, t⟩ (hd.tokens ++ ts) c' := by
  obtain ⟨line, name, isMacro, numberOnly, version⟩ := hd
  rcases hm : ms.token name with ⟨a, ms₁⟩
  simp only [Header.run, hm] at h
  obtain ⟨ms₂, h₂, h₃⟩ := Res.bind_eq_ok h
  obtain ⟨ms₄, h₄, h₅⟩ := Res.bind_eq_ok h₃
  obtain ⟨m₂, h₂', e₂⟩ := quiet_ok h₂
  subst e₂
  cases isMacro with
  | true =>
    simp only [if_true] at h₄
    refine Run.shift rfl (Run.shift rfl (Run.shiftStr hm rfl (Run.shift rfl
      (headerVersion_steps numberOnly version h₂' (Run.shift rfl ?_)))))
    refine Run.red6 (lhs := .header) (act := [.expect .teFile [.free 3], .insertHeader .macro 3, .free 3]) line ms' t .none
      (by decide) (by action [he, h₄, h₅]) ?_
    exact k
  | false =>
    simp only [Bool.false_eq_true, if_false] at h₄
    refine Run.shift rfl (Run.shiftStr hm rfl
      (headerVersion_steps numberOnly version h₂' (Run.shift rfl ?_)))
    refine Run.red4 (lhs := .header) (act := [.expect .teFile [.free 2], .insertHeader .bare 2, .free 2]) line ms' t .none
      (by decide) (by action [he, h₄, h₅]) ?_
    exact k

/-! ## Interface files -/

theorem IfDef.steps (d : IfDef) {ms' : MState} (he : e = .ifFile) (h : d.run ms = .ok ms')
    (k : Run ⟨e, ⟨.n .interfaceDef, .none⟩ :: σ, none, ms', t⟩ ts c') :
    Run ⟨e, σ, none, ms, t⟩ (d.tokens ++ ts) c' := by
  obtain ⟨line, isTemplate, name, cmd, body⟩ := d
  rcases hm : ms.token name with ⟨a, ms₁⟩
  simp only [IfDef.run, hm] at h
  obtain ⟨ms₂, h₂, h₃⟩ := Res.bind_eq_ok h
  obtain ⟨ms₄, h₄, h₅⟩ := Res.bind_eq_ok h₃
  simp only [IfDef.tokens, List.append_assoc, List.cons_append, List.nil_append]
  have start : ∀ {ts}, Run ⟨e, ⟨.n .startInterface, .none⟩ :: σ, none, ms₄, t⟩ ts c' →
      Run ⟨e, σ, none, ms, t⟩ (.kw (if isTemplate then .template else .interface) :: tOpen ::
        tTick :: .string name :: tQuote :: tComma :: tTick :: ts) c' := by
    intro ts k
    have key : Run ⟨e, ⟨.n .ifKeyword, .ifKind isTemplate⟩ :: σ, none, ms, t⟩ (tOpen ::
        tTick :: .string name :: tQuote :: tComma :: tTick :: ts) c' := by
      refine Run.shift rfl (Run.shift rfl (Run.shiftStr hm rfl (Run.shift rfl (Run.shift rfl
        (Run.shift rfl ?_)))))
      refine Run.red7 (lhs := .startInterface) (act := [.expect .ifFile [], .beginInterfaceDef 1 4, .free 4]) line ms₄ t .none
        (by decide) (by action [he, h₂, h₄]) ?_
      exact k
    cases isTemplate with
    | false =>
      refine Run.shift rfl ?_
      refine Run.red1 (lhs := .ifKeyword) (act := [.ifKind false]) 0 _ t _
        (by decide) rfl ?_
      exact key
    | true =>
      refine Run.shift rfl ?_
      refine Run.red1 (lhs := .ifKeyword) (act := [.ifKind true]) 0 _ t _
        (by decide) rfl ?_
      exact key
  refine start ?_
  cases cmd with
  | none =>
    simp only [MState.heldToken, MState.lateCommand] at h₅
    obtain ⟨ms₆, h₆, h₇⟩ := Res.bind_eq_ok h₅
    obtain ⟨ms₈, h₈, h₉⟩ := Res.bind_eq_ok h₇
    cases h₉
    cases body with
    | none =>
      cases h₆
      refine Run.shift rfl (Run.shift rfl ?_)
      refine Run.red2 (lhs := .endInterface) (act := [.endInterfaceDef]) 0 ms' t .none
        (by decide) (by action [h₈]) ?_
      refine Run.red2 (lhs := .interfaceDef) (act := []) 0 _ t _
        (by decide) rfl ?_
      exact k
    | some b =>
      refine b.steps h₆ (Run.shift rfl (Run.shift rfl ?_))
      refine Run.red2 (lhs := .endInterface) (act := [.endInterfaceDef]) 0 ms' t .none
        (by decide) (by action [h₈]) ?_
      refine Run.red3 (lhs := .interfaceDef) (act := []) 0 _ t _
        (by decide) rfl ?_
      exact k
  | some s =>
    rcases hs : ms₄.token s with ⟨p, ms₅⟩
    simp only [MState.heldToken, hs, MState.lateCommand] at h₅
    obtain ⟨ms₆, h₆, h₇⟩ := Res.bind_eq_ok h₅
    obtain ⟨ms₈, h₈, h₉⟩ := Res.bind_eq_ok h₇
    obtain ⟨m, h₁₀, h₁₁⟩ := Res.bind_eq_ok h₉
    refine Run.shiftStr hs rfl ?_
    cases body with
    | none =>
      cases h₆
      refine Run.shift rfl (Run.shift rfl ?_)
      refine Run.red2 (lhs := .endInterface) (act := [.endInterfaceDef]) 0 ms₈ t .none
        (by decide) (by action [h₈]) ?_
      refine Run.red3 (lhs := .interfaceDef) (act := [.saveCommand 2, .free 2]) 0 ms' t .none
        (by decide) (by action [h₁₀, h₁₁]) ?_
      exact k
    | some b =>
      refine b.steps h₆ (Run.shift rfl (Run.shift rfl ?_))
      refine Run.red2 (lhs := .endInterface) (act := [.endInterfaceDef]) 0 ms₈ t .none
        (by decide) (by action [h₈]) ?_
      refine Run.red4 (lhs := .interfaceDef) (act := [.saveCommand 2, .free 2]) 0 ms' t .none
        (by decide) (by action [h₁₀, h₁₁]) ?_
      exact k

theorem IfLine.steps (l : IfLine) {ms' : MState} (he : e = .ifFile) (h : l.run ms = .ok ms')
    (k : Run ⟨e, ⟨.n .ifLine, .none⟩ :: σ, none, ms', t⟩ ts c') :
    Run ⟨e, σ, none, ms, t⟩ (l.tokens ++ ts) c' := by
  cases l with
  | defn d =>
    refine d.steps he h ?_
    refine Run.red1 (lhs := .ifLine) (act := []) 0 _ t _
      (by decide) rfl ?_
    exact k
  | comment line =>
    refine Run.shift rfl ?_
    refine Run.red1 (lhs := .ifLine) (act := [.insertComment]) line ms' t .none
      (by decide) (by action [show ms.insertComment line = .ok ms' from h]) ?_
    exact k

theorem ifLines_steps (ls : List IfLine) {ms ms' : MState} (he : e = .ifFile)
    (h : runIfLines ls ms = .ok ms')
    (k : Run ⟨e, ⟨.n .ifLines, .none⟩ :: σ, none, ms', t⟩ ts c') :
    Run ⟨e, ⟨.n .ifLines, .none⟩ :: σ, none, ms, t⟩ (ls.flatMap IfLine.tokens ++ ts) c' := by
  induction ls generalizing ms with
  | nil =>
    cases h
    exact k
  | cons l ls ih =>
    obtain ⟨ms₁, h₁, h₂⟩ := Res.bind_eq_ok h
    rw [List.flatMap_cons, List.append_assoc]
    refine l.steps he h₁ ?_
    refine Run.red2 (lhs := .ifLines) (act := []) 0 _ t _
      (by decide) rfl ?_
    exact ih h₂

theorem ifFile_steps (d : IfDef) (ls : List IfLine) {ms₁ ms' : MState} (he : e = .ifFile)
    (h : d.run ms = .ok ms₁) (hl : runIfLines ls ms₁ = .ok ms')
    (k : Run ⟨e, ⟨.n .ifFile, .none⟩ :: σ, none, ms', t⟩ ts c') :
    Run ⟨e, σ, none, ms, t⟩ (d.tokens ++ (ls.flatMap IfLine.tokens ++ ts)) c' := by
  refine d.steps he h ?_
  cases ls with
  | nil =>
    cases hl
    refine Run.red1 (lhs := .ifFile) (act := []) 0 _ t _
      (by decide) rfl ?_
    exact k
  | cons l ls =>
    obtain ⟨ms₂, h₁, h₂⟩ := Res.bind_eq_ok hl
    rw [List.flatMap_cons, List.append_assoc]
    refine l.steps he h₁ ?_
    refine Run.red1 (lhs := .ifLines) (act := []) 0 _ t _
      (by decide) rfl ?_
    refine ifLines_steps ls he h₂ ?_
    refine Run.red2 (lhs := .ifFile) (act := []) 0 _ t _
      (by decide) rfl ?_
    exact k

/-! ## Support files -/

theorem SptDef.steps (d : SptDef) {ms' : MState} {t' : Sptables} (he : e = .sptFile)
    (h : d.run ms t = .ok (ms', t'))
    (k : Run ⟨e, ⟨.n .supportDef, .none⟩ :: σ, none, ms', t'⟩ ts c') :
    Run ⟨e, σ, none, ms, t⟩ (d.tokens ++ ts) c' := by
  obtain ⟨name, list, warn⟩ := d
  rcases hm : ms.token name with ⟨a, ms₁⟩
  simp only [SptDef.run, hm] at h
  obtain ⟨⟨p, ms₂⟩, h₂, h₃⟩ := Res.bind_eq_ok h
  simp only [SptDef.tokens, List.append_assoc, List.cons_append, List.nil_append]
  refine Run.shift rfl (Run.shift rfl (Run.shift rfl (Run.shiftStr hm rfl (Run.shift rfl (Run.shift rfl
    (Run.shift rfl (list.steps h₂ ?_)))))))
  cases warn with
  | some w =>
    simp only at h₃
    obtain ⟨ms₄, h₄, h₅⟩ := Res.bind_eq_ok h₃
    obtain ⟨ms₆, h₆, h₇⟩ := Res.bind_eq_ok h₅
    obtain ⟨ms₈, h₈, h₉⟩ := Res.bind_eq_ok h₇
    cases h₉
    obtain ⟨m₄, h₄', e₄⟩ := quiet_ok h₄
    subst e₄
    refine refpolicywarn_steps w h₄' (Run.shift rfl (Run.shift rfl ?_))
    refine Run.red11 (lhs := .supportDef) (act := [.expect .sptFile [.free 4, .freeList 8], .free 4, .freeList 8]) 0 ms' t .none
      (by decide) (by action [he, h₆, h₈]) ?_
    exact k
  | none =>
    simp only at h₃
    obtain ⟨s, h₄, h₅⟩ := Res.bind_eq_ok h₃
    refine Run.shift rfl (Run.shift rfl ?_)
    split at h₅
    · rename_i hs
      obtain ⟨l, h₆, h₇⟩ := Res.bind_eq_ok h₅
      rcases hg : giveList ms₂ t s p (l.map (·.1)) with ⟨ms₈, t₈⟩
      simp only [hg] at h₇
      obtain ⟨ms₉, h₉, h₁₀⟩ := Res.bind_eq_ok h₇
      cases h₁₀
      refine Run.red10 (lhs := .supportDef) (act := [.expect .sptFile [.free 4, .freeList 8], .insertMacro 4 8, .free 4]) 0 ms' t' .none
        (by decide) (by action [he, insertMacro, h₄, hs, h₆, hg, h₉]) ?_
      exact k
    · rename_i hs
      obtain ⟨ms₆, h₆, h₇⟩ := Res.bind_eq_ok h₅
      obtain ⟨ms₈, h₈, h₉⟩ := Res.bind_eq_ok h₇
      cases h₉
      refine Run.red10 (lhs := .supportDef) (act := [.expect .sptFile [.free 4, .freeList 8], .insertMacro 4 8, .free 4]) 0 ms' t .none
        (by decide) (by action [he, insertMacro, h₄, hs, h₆, h₈]) ?_
      exact k

/-- The tokens of a line of a support file. -/
abbrev sptLineTokens : Option SptDef → List Token
  | none => [.comment]
  | some d => d.tokens

theorem sptLine_steps (d : Option SptDef) (ds : List (Option SptDef)) {ms' : MState} {t' : Sptables}
    (he : e = .sptFile) (h : runSptLines (d :: ds) ms t = .ok (ms', t')) :
    ∃ ms₁ t₁, runSptLines ds ms₁ t₁ = .ok (ms', t') ∧ ∀ {ts},
      Run ⟨e, ⟨.n .sptLine, .none⟩ :: σ, none, ms₁, t₁⟩ ts c' →
      Run ⟨e, σ, none, ms, t⟩ (sptLineTokens d ++ ts) c' := by
  cases d with
  | none =>
    refine ⟨ms, t, h, fun k => Run.shift rfl ?_⟩
    refine Run.red1 (lhs := .sptLine) (act := []) 0 _ t _
      (by decide) rfl ?_
    exact k
  | some d =>
    obtain ⟨⟨ms₁, t₁⟩, h₁, h₂⟩ := Res.bind_eq_ok h
    refine ⟨ms₁, t₁, h₂, fun k => d.steps he h₁ ?_⟩
    refine Run.red1 (lhs := .sptLine) (act := []) 0 _ t₁ _
      (by decide) rfl ?_
    exact k

theorem sptLines_steps (ds : List (Option SptDef)) {ms ms' : MState} {t t' : Sptables}
    (he : e = .sptFile) (h : runSptLines ds ms t = .ok (ms', t'))
    (k : Run ⟨e, ⟨.n .sptLines, .none⟩ :: σ, none, ms', t'⟩ ts c') :
    Run ⟨e, ⟨.n .sptLines, .none⟩ :: σ, none, ms, t⟩ (ds.flatMap sptLineTokens ++ ts) c' := by
  induction ds generalizing ms t with
  | nil =>
    cases h
    exact k
  | cons d ds ih =>
    obtain ⟨ms₁, t₁, h₁, h₂⟩ := sptLine_steps (σ := ⟨.n .sptLines, .none⟩ :: σ) (c' := c') d ds he h
    rw [List.flatMap_cons, List.append_assoc]
    refine h₂ ?_
    refine Run.red2 (lhs := .sptLines) (act := []) 0 _ t₁ _
      (by decide) rfl ?_
    exact ih h₁

theorem sptFile_steps (d : SptDef) (ds : List (Option SptDef)) {ms₁ ms' : MState}
    {t₁ t' : Sptables} (he : e = .sptFile) (h : d.run ms t = .ok (ms₁, t₁))
    (hl : runSptLines ds ms₁ t₁ = .ok (ms', t'))
    (k : Run ⟨e, ⟨.n .sptFile, .none⟩ :: σ, none, ms', t'⟩ ts c') :
    Run ⟨e, σ, none, ms, t⟩ (d.tokens ++ (ds.flatMap sptLineTokens ++ ts)) c' := by
  refine d.steps he h ?_
  cases ds with
  | nil =>
    cases hl
    refine Run.red1 (lhs := .sptFile) (act := []) 0 _ t₁ _
      (by decide) rfl ?_
    exact k
  | cons d ds =>
    obtain ⟨ms₂, t₂, h₁, h₂⟩ := sptLine_steps (σ := ⟨.n .supportDef, .none⟩ :: σ) (c' := c') d ds he hl
    rw [List.flatMap_cons, List.append_assoc]
    refine h₂ ?_
    refine Run.red1 (lhs := .sptLines) (act := []) 0 _ t₂ _
      (by decide) rfl ?_
    refine sptLines_steps ds he h₁ ?_
    refine Run.red2 (lhs := .sptFile) (act := []) 0 _ t' _
      (by decide) rfl ?_
    exact k

/-! ## Access vector files -/

theorem token_get {s : Str} {a : Addr} {ms' : MState} (h : ms.token s = (a, ms')) :
    ms'.mem.get Obj.str? a = .ok s ∧ a < ms'.mem.top ∧ a = ms.mem.top ∧ ms'.maps = ms.maps := by
  simp only [MState.token, Mem.malloc, Prod.mk.injEq] at h
  obtain ⟨rfl, rfl⟩ := h
  simp [Mem.get, Obj.str?]

theorem token_keeps {s : Str} {a b : Addr} {ms' : MState} (h : ms.token s = (a, ms'))
    (hb : b < ms.mem.top) :
    ms'.mem.get Obj.str? b = ms.mem.get Obj.str? b ∧ b < ms'.mem.top := by
  simp only [MState.token, Mem.malloc, Prod.mk.injEq] at h
  obtain ⟨rfl, rfl⟩ := h
  have : b ≠ ms.mem.top := by omega
  simp only [Mem.get, this, if_false, true_and]
  omega

theorem free_keeps {a b : Addr} {ms' : MState} (h : ms.free a = .ok ms') (hb : b ≠ a) :
    ms'.mem.get Obj.str? b = ms.mem.get Obj.str? b ∧ ms'.mem.top = ms.mem.top ∧
      ms'.maps = ms.maps := by
  obtain ⟨m, h₁, h₂⟩ := Res.bind_eq_ok h
  cases h₂
  simp only [Mem.free] at h₁
  split at h₁
  · cases h₁
  · cases h₁
    simp [Mem.get, hb]

theorem runPerms_keeps (ps : List (Option Str)) {ms ms' : MState} {b : Addr}
    (h : runPerms ps ms = .ok ms') (hb : b < ms.mem.top) :
    ms'.mem.get Obj.str? b = ms.mem.get Obj.str? b := by
  induction ps generalizing ms with
  | nil =>
    cases h
    rfl
  | cons p ps ih =>
    cases p with
    | none => exact ih h hb
    | some s =>
      rcases hm : ms.token s with ⟨a, ms₁⟩
      simp only [runPerms, hm] at h
      obtain ⟨ms₂, h₂, h₃⟩ := Res.bind_eq_ok h
      have k₁ := token_keeps hm hb
      have k₀ := token_get hm
      have k₂ := free_keeps h₂ (b := b) (by have := k₀.2.2.1; omega)
      rw [ih h₃ (by rw [k₂.2.1]; exact k₁.2), k₂.1]
      exact k₁.1

/-- The token of a permission. -/
abbrev permToken : Option Str → Token
  | none => .comment
  | some s => .string s

theorem perm_steps (p : Option Str) (ps : List (Option Str)) {ms' : MState}
    (h : runPerms (p :: ps) ms = .ok ms') :
    ∃ ms₁, runPerms ps ms₁ = .ok ms' ∧ ∀ {ts},
      Run ⟨e, ⟨.n .avPermission, .none⟩ :: σ, none, ms₁, t⟩ ts c' →
      Run ⟨e, σ, none, ms, t⟩ (permToken p :: ts) c' := by
  cases p with
  | none =>
    refine ⟨ms, h, fun k => Run.shift rfl ?_⟩
    refine Run.red1 (lhs := .avPermission) (act := []) 0 _ t _
      (by decide) rfl ?_
    exact k
  | some s =>
    rcases hm : ms.token s with ⟨a, ms₁⟩
    simp only [runPerms, hm] at h
    obtain ⟨ms₂, h₂, h₃⟩ := Res.bind_eq_ok h
    refine ⟨ms₂, h₃, fun k => Run.shiftStr hm rfl ?_⟩
    refine Run.red1 (lhs := .avPermission) (act := [.insertAv .perm 1, .free 1]) 0 ms₂ t .none
      (by decide) (by action [(token_get hm).1, h₂]) ?_
    exact k

theorem perms_steps (ps : List (Option Str)) {ms ms' : MState} (h : runPerms ps ms = .ok ms')
    (k : Run ⟨e, ⟨.n .avPermissions, .none⟩ :: σ, none, ms', t⟩ ts c') :
    Run ⟨e, ⟨.n .avPermissions, .none⟩ :: σ, none, ms, t⟩ (ps.map permToken ++ ts) c' := by
  induction ps generalizing ms with
  | nil =>
    cases h
    exact k
  | cons p ps ih =>
    obtain ⟨ms₁, h₁, h₂⟩ := perm_steps (σ := ⟨.n .avPermissions, .none⟩ :: σ) (c' := c') p ps h
    rw [List.map_cons, List.cons_append]
    refine h₂ ?_
    refine Run.red2 (lhs := .avPermissions) (act := []) 0 _ t _
      (by decide) rfl ?_
    exact ih h₁

theorem AvPerms.steps (p : AvPerms) {ms' : MState} (h : runPerms p.all ms = .ok ms')
    (k : Run ⟨e, ⟨.n .avPermissionList, .none⟩ :: σ, none, ms', t⟩ ts c') :
    Run ⟨e, σ, none, ms, t⟩ (p.tokens ++ ts) c' := by
  obtain ⟨q, qs⟩ := p
  show Run ⟨e, σ, none, ms, t⟩ (tLeft :: (((q :: qs).map permToken ++ [tRight]) ++ ts)) c'
  refine Run.shift rfl ?_
  obtain ⟨ms₁, h₁, h₂⟩ := perm_steps (e := e) (t := t) (σ := ⟨.t (.p .openCurly), .none⟩ :: σ) (c' := c') q qs h
  rw [List.map_cons, List.append_assoc, List.cons_append]
  refine h₂ ?_
  refine Run.red1 (lhs := .avPermissions) (act := []) 0 _ t _
    (by decide) rfl ?_
  refine perms_steps qs h₁ (Run.shift rfl ?_)
  refine Run.red3 (lhs := .avPermissionList) (act := []) 0 _ t _
    (by decide) rfl ?_
  exact k

theorem AvDef.steps (d : AvDef) {ms' : MState} (he : d.isClass = true → e = .avFile)
    (h : d.run ms = .ok ms')
    (k : Run ⟨e, ⟨.n .avDefinition, .none⟩ :: σ, none, ms', t⟩ ts c') :
    Run ⟨e, σ, none, ms, t⟩ (d.tokens ++ ts) c' := by
  cases d with
  | cls n p =>
    have he := he rfl
    rcases hm : ms.token n with ⟨a, ms₁⟩
    simp only [AvDef.run, hm] at h
    obtain ⟨ms₂, h₂, h₃⟩ := Res.bind_eq_ok h
    have hg := runPerms_keeps p.all h₂ (token_get hm).2.1
    rw [(token_get hm).1] at hg
    simp only [AvDef.tokens, List.cons_append]
    refine Run.shift rfl (Run.shiftStr hm rfl (p.steps h₂ ?_))
    refine Run.red3 (lhs := .avClassDefinition) (act := [.expect .avFile [.free 2], .insertAv .cls 2, .free 2]) 0 ms' t .none
      (by decide) (by action [he, hg, h₃]) ?_
    refine Run.red1 (lhs := .avDefinition) (act := []) 0 _ t _
      (by decide) rfl ?_
    exact k
  | inherits n c =>
    have he := he rfl
    rcases hm : ms.token n with ⟨a, ms₁⟩
    rcases hc : ms₁.token c with ⟨b, ms₂⟩
    simp only [AvDef.run, hm, hc] at h
    obtain ⟨ms₃, h₃, h₄⟩ := Res.bind_eq_ok h
    have hg := (token_keeps hc (token_get hm).2.1).1
    rw [(token_get hm).1] at hg
    simp only [AvDef.tokens, List.cons_append, List.nil_append]
    refine Run.shift rfl (Run.shiftStr hm rfl (Run.shift rfl (Run.shiftStr hc rfl ?_)))
    refine Run.red4 (lhs := .avClassDefinition) (act := [.expect .avFile [.free 2, .free 4], .insertAv .cls 2, .free 2, .free 4]) 0 ms' t .none
      (by decide) (by action [he, hg, h₃, h₄]) ?_
    refine Run.red1 (lhs := .avDefinition) (act := []) 0 _ t _
      (by decide) rfl ?_
    exact k
  | inheritsPerms n c p =>
    have he := he rfl
    rcases hm : ms.token n with ⟨a, ms₁⟩
    rcases hc : ms₁.token c with ⟨b, ms₂⟩
    simp only [AvDef.run, hm, hc] at h
    obtain ⟨ms₅, h₅, h₆⟩ := Res.bind_eq_ok h
    obtain ⟨ms₃, h₃, h₄⟩ := Res.bind_eq_ok h₆
    have hg := (token_keeps hc (token_get hm).2.1).1
    have hg' := runPerms_keeps p.all h₅ (token_keeps hc (token_get hm).2.1).2
    rw [hg, (token_get hm).1] at hg'
    simp only [AvDef.tokens, List.cons_append, List.nil_append]
    refine Run.shift rfl (Run.shiftStr hm rfl (Run.shift rfl (Run.shiftStr hc rfl (p.steps h₅ ?_))))
    refine Run.red5 (lhs := .avClassDefinition) (act := [.expect .avFile [.free 2, .free 4], .insertAv .cls 2, .free 2, .free 4]) 0 ms' t .none
      (by decide) (by action [he, hg', h₃, h₄]) ?_
    refine Run.red1 (lhs := .avDefinition) (act := []) 0 _ t _
      (by decide) rfl ?_
    exact k
  | common n p =>
    rcases hm : ms.token n with ⟨a, ms₁⟩
    simp only [AvDef.run, hm] at h
    obtain ⟨ms₂, h₂, h₃⟩ := Res.bind_eq_ok h
    simp only [AvDef.tokens, List.cons_append]
    refine Run.shift rfl (Run.shiftStr hm rfl (p.steps h₂ ?_))
    refine Run.red3 (lhs := .avCommonDefinition) (act := [.free 2]) 0 ms' t .none
      (by decide) (by action [h₃]) ?_
    refine Run.red1 (lhs := .avDefinition) (act := []) 0 _ t _
      (by decide) rfl ?_
    exact k

/-- The tokens of a line of an access vector file. -/
abbrev avLineTokens : Option AvDef → List Token
  | none => [.comment]
  | some d => d.tokens

theorem avLine_steps (d : Option AvDef) (ds : List (Option AvDef)) {ms' : MState}
    (he : d.any AvDef.isClass = true → e = .avFile) (h : runAvLines (d :: ds) ms = .ok ms') :
    ∃ ms₁, runAvLines ds ms₁ = .ok ms' ∧ ∀ {ts},
      Run ⟨e, ⟨.n .avContent, .none⟩ :: σ, none, ms₁, t⟩ ts c' →
      Run ⟨e, σ, none, ms, t⟩ (avLineTokens d ++ ts) c' := by
  cases d with
  | none =>
    refine ⟨ms, h, fun k => Run.shift rfl ?_⟩
    refine Run.red1 (lhs := .avContent) (act := []) 0 _ t _
      (by decide) rfl ?_
    exact k
  | some d =>
    obtain ⟨ms₁, h₁, h₂⟩ := Res.bind_eq_ok h
    refine ⟨ms₁, h₂, fun k => d.steps he h₁ ?_⟩
    refine Run.red1 (lhs := .avContent) (act := []) 0 _ t _
      (by decide) rfl ?_
    exact k

theorem avLines_steps (ds : List (Option AvDef)) {ms ms' : MState}
    (he : ∀ d ∈ ds, d.any AvDef.isClass = true → e = .avFile) (h : runAvLines ds ms = .ok ms')
    (k : Run ⟨e, ⟨.n .avContents, .none⟩ :: σ, none, ms', t⟩ ts c') :
    Run ⟨e, ⟨.n .avContents, .none⟩ :: σ, none, ms, t⟩ (ds.flatMap avLineTokens ++ ts) c' := by
  induction ds generalizing ms with
  | nil =>
    cases h
    exact k
  | cons d ds ih =>
    obtain ⟨ms₁, h₁, h₂⟩ := avLine_steps (t := t) (σ := ⟨.n .avContents, .none⟩ :: σ) (c' := c') d ds
      (he d (by simp)) h
    rw [List.flatMap_cons, List.append_assoc]
    refine h₂ ?_
    refine Run.red2 (lhs := .avContents) (act := []) 0 _ t _
      (by decide) rfl ?_
    exact ih (fun d hd => he d (by simp [hd])) h₁

theorem avFile_steps (d : AvDef) (ds : List (Option AvDef)) {ms₁ ms' : MState}
    (he : ∀ d' ∈ some d :: ds, d'.any AvDef.isClass = true → e = .avFile)
    (h : d.run ms = .ok ms₁) (hl : runAvLines ds ms₁ = .ok ms')
    (k : Run ⟨e, ⟨.n .avFile, .none⟩ :: σ, none, ms', t⟩ ts c') :
    Run ⟨e, σ, none, ms, t⟩ (d.tokens ++ (ds.flatMap avLineTokens ++ ts)) c' := by
  refine d.steps (he (some d) (by simp)) h ?_
  cases ds with
  | nil =>
    cases hl
    refine Run.red1 (lhs := .avFile) (act := []) 0 _ t _
      (by decide) rfl ?_
    exact k
  | cons d' ds =>
    obtain ⟨ms₂, h₁, h₂⟩ := avLine_steps (t := t) (σ := ⟨.n .avDefinition, .none⟩ :: σ) (c' := c') d' ds
      (he d' (by simp)) hl
    rw [List.flatMap_cons, List.append_assoc]
    refine h₂ ?_
    refine Run.red1 (lhs := .avContents) (act := []) 0 _ t _
      (by decide) rfl ?_
    refine avLines_steps ds (fun d hd => he d (by simp [hd])) h₁ ?_
    refine Run.red2 (lhs := .avFile) (act := []) 0 _ t _
      (by decide) rfl ?_
    exact k

/-! ## Files -/

/-- The kind of file that is expected when the definitions in the file are of that kind. -/
def SourceFile.Suits (e : PlainFlavor) : SourceFile → Prop
  | .te .. => e = .teFile
  | .iface .. => e = .ifFile
  | .spt .. => e = .sptFile
  | .av _ d ds => ∀ d' ∈ some d :: ds, d'.any AvDef.isClass = true → e = .avFile
  | _ => True

theorem SourceFile.steps (f : SourceFile) {e : PlainFlavor} {mod : Str} {maps : Maps} {m₀ : Mem}
    {ast : Addr} {ms : MState} {t : Sptables} (he : f.Suits e)
    (h : f.run e mod maps m₀ = .ok (ast, ms, t)) :
    Run (start m₀ e mod maps) f.tokens ⟨e, [⟨.n .selinuxFile, .none⟩], none, ms, t⟩ := by
  have fin : ∀ {c us}, Run c (us ++ []) ⟨e, [⟨.n .selinuxFile, .none⟩], none, ms, t⟩ →
      Run c us ⟨e, [⟨.n .selinuxFile, .none⟩], none, ms, t⟩ := by
    intro c us h
    rwa [List.append_nil] at h
  cases f with
  | empty =>
    simp only [SourceFile.run] at h
    obtain ⟨n, h₁, h₂⟩ := Res.bind_eq_ok h
    obtain ⟨m, h₃, h₄⟩ := Res.bind_eq_ok h₂
    cases h₄
    refine Run.reduce (r := ⟨.selinuxFile, [], [.setEmpty], [], true⟩) 0 (by decide) rfl (.inr rfl)
      (v := .none) ?_ Run.refl
    simp [execAll, Cmd.exec, Act.step, setEmpty, h₁, h₃]
  | te cs hd b =>
    simp only [SourceFile.run] at h
    obtain ⟨ms₁, h₁, h₂⟩ := Res.bind_eq_ok h
    obtain ⟨ms₃, h₃, h₄⟩ := Res.bind_eq_ok h₂
    obtain ⟨ms₅, h₅, h₆⟩ := Res.bind_eq_ok h₄
    cases h₆
    have key : ∀ {σ c' us}, Run ⟨e, ⟨.n .tePolicy, .none⟩ :: σ, none, ms, ⟨[], []⟩⟩ us c' →
        Run ⟨e, σ, none, ms₁, ⟨[], []⟩⟩ (hd.tokens ++ (b.tokens ++ us)) c' := by
      intro σ c' us k
      refine hd.steps he h₃ (b.steps h₅ ?_)
      refine Run.red1 (lhs := .body) (act := []) 0 _ ⟨[], []⟩ _
        (by decide) rfl ?_
      refine Run.red2 (lhs := .tePolicy) (act := []) 0 _ ⟨[], []⟩ _
        (by decide) rfl ?_
      exact k
    refine fin ?_
    simp only [SourceFile.tokens, List.append_assoc]
    cases cs with
    | nil =>
      cases h₁
      refine key ?_
      refine Run.red1 (lhs := .selinuxFile) (act := []) 0 _ ⟨[], []⟩ _
        (by decide) rfl ?_
      exact Run.refl
    | cons n ns =>
      refine comments_steps n ns h₁ (key ?_)
      refine Run.red2 (lhs := .selinuxFile) (act := []) 0 _ ⟨[], []⟩ _
        (by decide) rfl ?_
      exact Run.refl
  | iface cs d ls =>
    simp only [SourceFile.run] at h
    obtain ⟨ms₁, h₁, h₂⟩ := Res.bind_eq_ok h
    obtain ⟨ms₃, h₃, h₄⟩ := Res.bind_eq_ok h₂
    obtain ⟨ms₅, h₅, h₆⟩ := Res.bind_eq_ok h₄
    cases h₆
    refine fin ?_
    simp only [SourceFile.tokens, List.append_assoc]
    cases cs with
    | nil =>
      cases h₁
      refine ifFile_steps d ls he h₃ h₅ ?_
      refine Run.red1 (lhs := .selinuxFile) (act := []) 0 _ ⟨[], []⟩ _
        (by decide) rfl ?_
      exact Run.refl
    | cons n ns =>
      refine comments_steps n ns h₁ (ifFile_steps d ls he h₃ h₅ ?_)
      refine Run.red2 (lhs := .selinuxFile) (act := []) 0 _ ⟨[], []⟩ _
        (by decide) rfl ?_
      exact Run.refl
  | spt cs d ls =>
    simp only [SourceFile.run] at h
    obtain ⟨ms₁, h₁, h₂⟩ := Res.bind_eq_ok h
    obtain ⟨⟨ms₃, t₃⟩, h₃, h₄⟩ := Res.bind_eq_ok h₂
    obtain ⟨⟨ms₅, t₅⟩, h₅, h₆⟩ := Res.bind_eq_ok h₄
    cases h₆
    refine fin ?_
    simp only [SourceFile.tokens, List.append_assoc]
    cases cs with
    | nil =>
      cases h₁
      refine sptFile_steps d ls he h₃ h₅ ?_
      refine Run.red1 (lhs := .selinuxFile) (act := []) 0 _ t₅ _
        (by decide) rfl ?_
      exact Run.refl
    | cons n ns =>
      refine comments_steps n ns h₁ (sptFile_steps d ls he h₃ h₅ ?_)
      refine Run.red2 (lhs := .selinuxFile) (act := []) 0 _ t₅ _
        (by decide) rfl ?_
      exact Run.refl
  | av cs d ls =>
    simp only [SourceFile.run] at h
    obtain ⟨ms₁, h₁, h₂⟩ := Res.bind_eq_ok h
    obtain ⟨ms₃, h₃, h₄⟩ := Res.bind_eq_ok h₂
    obtain ⟨ms₅, h₅, h₆⟩ := Res.bind_eq_ok h₄
    cases h₆
    refine fin ?_
    simp only [SourceFile.tokens, List.append_assoc]
    cases cs with
    | nil =>
      cases h₁
      refine avFile_steps d ls he h₃ h₅ ?_
      refine Run.red1 (lhs := .selinuxFile) (act := []) 0 _ ⟨[], []⟩ _
        (by decide) rfl ?_
      exact Run.refl
    | cons n ns =>
      refine comments_steps n ns h₁ (avFile_steps d ls he h₃ h₅ ?_)
      refine Run.red2 (lhs := .selinuxFile) (act := []) 0 _ ⟨[], []⟩ _
        (by decide) rfl ?_
      exact Run.refl
  | comments c cs =>
    simp only [SourceFile.run] at h
    obtain ⟨ms₁, h₁, h₂⟩ := Res.bind_eq_ok h
    cases h₂
    refine fin ?_
    refine comments_steps c cs h₁ ?_
    refine Run.red1 (lhs := .selinuxFile) (act := []) 0 _ ⟨[], []⟩ _
      (by decide) rfl ?_
    exact Run.refl

theorem SourceFile.exec_suits {f : SourceFile} {e : PlainFlavor} {mod : Str} {maps : Maps}
    {st : PState} (h : f.exec e mod maps = .ok (some st)) : f.Suits e := by
  cases f with
  | te cs hd b =>
    simp only [SourceFile.exec] at h
    split at h
    · cases h
    · rename_i he
      exact Classical.not_not.1 he
  | iface cs hd b =>
    simp only [SourceFile.exec] at h
    split at h
    · cases h
    · rename_i he
      exact Classical.not_not.1 he
  | spt cs hd b =>
    simp only [SourceFile.exec] at h
    split at h
    · cases h
    · rename_i he
      exact Classical.not_not.1 he
  | av cs d ls =>
    simp only [SourceFile.exec] at h
    split at h
    · cases h
    · rename_i he
      intro d' hd hc
      refine Classical.byContradiction fun hne => he ⟨hne, ?_⟩
      exact List.any_eq_true.2 ⟨d', hd, hc⟩
  | empty => trivial
  | comments c cs => trivial

end Selint
