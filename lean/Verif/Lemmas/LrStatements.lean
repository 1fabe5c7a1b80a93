import Verif.Lemmas.LrValues
/-!
# The parser's moves for statements
-/

namespace Selint
open Lr

variable {e : PlainFlavor} {σ : List Entry} {ms : MState} {t : Sptables} {ts : List Token}
  {c' : Config}

/-! ## Statements without a node -/

theorem PortRange.steps (r : PortRange) {m' : Mem} (h : r.run ms.mem = .ok m')
    (k : Run ⟨e, ⟨.n .portRange, .none⟩ :: σ, none, { ms with mem := m' }, t⟩ ts c') :
    Run ⟨e, σ, none, ms, t⟩ (r.tokens ++ ts) c' := by
  cases r with
  | numString s =>
    rcases hm : ms.mem.malloc (.bytes s) with ⟨a₀, m₀⟩
    simp only [PortRange.run, Mem.dropToken, hm] at h
    refine Run.shiftStr (token_of hm) rfl ?_
    refine Run.red1 (lhs := .portRange) (act := [.free 1]) 0 { ms with mem := m' } t .none
      (by decide) (by action [MState.free, h]) ?_
    exact k
  | number s =>
    rcases hm : ms.mem.malloc (.bytes s) with ⟨a₀, m₀⟩
    simp only [PortRange.run, Mem.dropToken, hm] at h
    refine Run.shiftStr (token_of hm) rfl ?_
    refine Run.red1 (lhs := .portRange) (act := [.free 1]) 0 { ms with mem := m' } t .none
      (by decide) (by action [MState.free, h]) ?_
    exact k
  | range s u =>
    rcases hm : ms.mem.malloc (.bytes s) with ⟨a₀, m₀⟩
    rcases hn : m₀.malloc (.bytes u) with ⟨a₁, m₁⟩
    simp only [PortRange.run, hm, hn] at h
    obtain ⟨m₂, h₂, h⟩ := Res.bind_eq_ok h
    refine Run.shiftStr (token_of hm) rfl (Run.shift rfl (Run.shiftStr (token_of hn) rfl ?_))
    refine Run.red3 (lhs := .portRange) (act := [.free 1, .free 3]) 0 { ms with mem := m' } t .none
      (by decide) (by action [MState.free, h₂, h]) ?_
    exact k

theorem maybe_steps (o : Option Str) {a : Addr} {m' : Mem} (h : buildMaybe o ms.mem = (a, m'))
    (k : Run ⟨e, ⟨.n .maybeStringComma, .str a⟩ :: σ, none, { ms with mem := m' }, t⟩ ts c') :
    Run ⟨e, σ, none, ms, t⟩ (maybeStringComma o ++ ts) c' := by
  cases o with
  | some s =>
    refine Run.shiftStr (token_of h) rfl (Run.shift rfl ?_)
    refine Run.red2 (lhs := .maybeStringComma) (act := [.copy 1]) 0 _ t _
      (by decide) rfl ?_
    exact k
  | none =>
    simp only [buildMaybe] at h
    refine Run.shift rfl ?_
    refine Run.red1 (lhs := .maybeStringComma) (act := [.text []]) 0 { ms with mem := m' } t (.str a)
      (by decide) (by action [h]) ?_
    exact k

theorem refpolicywarn_steps (s : M4String) {m' : Mem} (h : s.run ms.mem = .ok m')
    (k : Run ⟨e, ⟨.n .refpolicywarn, .none⟩ :: σ, none, { ms with mem := m' }, t⟩ ts c') :
    Run ⟨e, σ, none, ms, t⟩ ((Silent.refpolicywarn s).tokens ++ ts) c' := by
  simp only [Silent.tokens, List.append_assoc, List.cons_append, List.nil_append]
  refine Run.shift rfl (Run.shift rfl (Run.shift rfl (s.steps h (Run.shift rfl (Run.shift rfl ?_)))))
  refine Run.red6 (lhs := .refpolicywarn) (act := []) 0 _ t _
    (by decide) rfl ?_
  exact k

theorem Silent.steps (s : Silent) {ms' : MState} (h : ms.quiet s.run = .ok ms')
    (k : Run ⟨e, ⟨.n .bareLine, .none⟩ :: σ, none, ms', t⟩ ts c') :
    Run ⟨e, σ, none, ms, t⟩ (s.tokens ++ ts) c' := by
  obtain ⟨m', h₀, rfl⟩ := quiet_ok h
  replace h := h₀
  cases s with
  | genfscon numeric fs path spec c =>
    rcases hm : ms.mem.malloc (.bytes fs) with ⟨a₀, m₀⟩
    rcases hn : m₀.malloc (.bytes path) with ⟨a₁, m₁⟩
    simp only [Silent.run, hm, hn] at h
    obtain ⟨m₂, h₂, h⟩ := Res.bind_eq_ok h
    obtain ⟨m₃, h₃, h⟩ := Res.bind_eq_ok h
    have key : Run ⟨e, ⟨.n .genfscon, .none⟩ :: σ, none, { ms with mem := m' }, t⟩ ts c' := by
      refine Run.red1 (lhs := .bareLine) (act := []) 0 _ t _
        (by decide) rfl ?_
      exact k
    cases numeric <;> cases spec <;>
      simp only [Silent.tokens, List.append_assoc, List.cons_append, List.nil_append, if_true,
        if_false, Bool.false_eq_true]
    · refine Run.shift rfl (Run.shiftStr (token_of hm) rfl (Run.shiftStr (token_of hn) rfl
        (c.steps h₂ ?_)))
      refine Run.red1 (lhs := .genfsconContext) (act := []) 0 _ t _
        (by decide) rfl ?_
      refine Run.red4 (lhs := .genfscon) (act := [.free 2, .free 3]) 0 { ms with mem := m' } t .none
        (by decide) (by action [MState.free, h₃, h]) ?_
      exact key
    · refine Run.shift rfl (Run.shiftStr (token_of hm) rfl (Run.shiftStr (token_of hn) rfl
        (Run.shift rfl (c.steps h₂ ?_))))
      refine Run.red2 (lhs := .genfsconContext) (act := []) 0 _ t _
        (by decide) rfl ?_
      refine Run.red4 (lhs := .genfscon) (act := [.free 2, .free 3]) 0 { ms with mem := m' } t .none
        (by decide) (by action [MState.free, h₃, h]) ?_
      exact key
    · refine Run.shift rfl (Run.shiftStr (token_of hm) rfl (Run.shiftStr (token_of hn) rfl
        (c.steps h₂ ?_)))
      refine Run.red1 (lhs := .genfsconContext) (act := []) 0 _ t _
        (by decide) rfl ?_
      refine Run.red4 (lhs := .genfscon) (act := [.free 2, .free 3]) 0 { ms with mem := m' } t .none
        (by decide) (by action [MState.free, h₃, h]) ?_
      exact key
    · refine Run.shift rfl (Run.shiftStr (token_of hm) rfl (Run.shiftStr (token_of hn) rfl
        (Run.shift rfl (c.steps h₂ ?_))))
      refine Run.red2 (lhs := .genfsconContext) (act := []) 0 _ t _
        (by decide) rfl ?_
      refine Run.red4 (lhs := .genfscon) (act := [.free 2, .free 3]) 0 { ms with mem := m' } t .none
        (by decide) (by action [MState.free, h₃, h]) ?_
      exact key
  | sid s c =>
    rcases hm : ms.mem.malloc (.bytes s) with ⟨a₀, m₀⟩
    simp only [Silent.run, hm] at h
    obtain ⟨m₂, h₂, h⟩ := Res.bind_eq_ok h
    refine Run.shift rfl (Run.shiftStr (token_of hm) rfl (c.steps h₂ ?_))
    refine Run.red3 (lhs := .sid) (act := [.free 2]) 0 { ms with mem := m' } t .none
      (by decide) (by action [MState.free, h]) ?_
    refine Run.red1 (lhs := .bareLine) (act := []) 0 _ t _
      (by decide) rfl ?_
    exact k
  | portcon s r c =>
    rcases hm : ms.mem.malloc (.bytes s) with ⟨a₀, m₀⟩
    simp only [Silent.run, hm] at h
    obtain ⟨m₁, h₁, h⟩ := Res.bind_eq_ok h
    obtain ⟨m₂, h₂, h⟩ := Res.bind_eq_ok h
    simp only [Silent.tokens, List.append_assoc, List.cons_append, List.nil_append]
    refine Run.shift rfl (Run.shiftStr (token_of hm) rfl (r.steps h₁ (c.steps h₂ ?_)))
    refine Run.red4 (lhs := .portcon) (act := [.free 2]) 0 { ms with mem := m' } t .none
      (by decide) (by action [MState.free, h]) ?_
    refine Run.red1 (lhs := .bareLine) (act := []) 0 _ t _
      (by decide) rfl ?_
    exact k
  | netifcon s c d =>
    rcases hm : ms.mem.malloc (.bytes s) with ⟨a₀, m₀⟩
    simp only [Silent.run, hm] at h
    obtain ⟨m₁, h₁, h⟩ := Res.bind_eq_ok h
    obtain ⟨m₂, h₂, h⟩ := Res.bind_eq_ok h
    simp only [Silent.tokens, List.append_assoc, List.cons_append, List.nil_append]
    refine Run.shift rfl (Run.shiftStr (token_of hm) rfl (c.steps h₁ (d.steps h₂ ?_)))
    refine Run.red4 (lhs := .netifcon) (act := [.free 2]) 0 { ms with mem := m' } t .none
      (by decide) (by action [MState.free, h]) ?_
    refine Run.red1 (lhs := .bareLine) (act := []) 0 _ t _
      (by decide) rfl ?_
    exact k
  | nodecon4 s u c =>
    rcases hm : ms.mem.malloc (.bytes s) with ⟨a₀, m₀⟩
    rcases hn : m₀.malloc (.bytes u) with ⟨a₁, m₁⟩
    simp only [Silent.run, hm, hn] at h
    obtain ⟨m₂, h₂, h⟩ := Res.bind_eq_ok h
    obtain ⟨m₃, h₃, h⟩ := Res.bind_eq_ok h
    refine Run.shift rfl (Run.shiftStr (token_of hm) rfl (Run.shiftStr (token_of hn) rfl ?_))
    refine Run.red2 (lhs := .twoIpAddrs) (act := [.free 1, .free 2]) 0 { ms with mem := m₃ } t .none
      (by decide) (by action [MState.free, h₂, h₃]) ?_
    refine c.steps (ms := { ms with mem := m₃ }) h ?_
    refine Run.red3 (lhs := .nodecon) (act := []) 0 _ t _
      (by decide) rfl ?_
    refine Run.red1 (lhs := .bareLine) (act := []) 0 _ t _
      (by decide) rfl ?_
    exact k
  | nodecon6 s u c =>
    rcases hm : ms.mem.malloc (.bytes s) with ⟨a₀, m₀⟩
    rcases hn : m₀.malloc (.bytes u) with ⟨a₁, m₁⟩
    simp only [Silent.run, hm, hn] at h
    obtain ⟨m₂, h₂, h⟩ := Res.bind_eq_ok h
    obtain ⟨m₃, h₃, h⟩ := Res.bind_eq_ok h
    refine Run.shift rfl (Run.shiftStr (token_of hm) rfl (Run.shiftStr (token_of hn) rfl ?_))
    refine Run.red2 (lhs := .twoIpAddrs) (act := [.free 1, .free 2]) 0 { ms with mem := m₃ } t .none
      (by decide) (by action [MState.free, h₂, h₃]) ?_
    refine c.steps (ms := { ms with mem := m₃ }) h ?_
    refine Run.red3 (lhs := .nodecon) (act := []) 0 _ t _
      (by decide) rfl ?_
    refine Run.red1 (lhs := .bareLine) (act := []) 0 _ t _
      (by decide) rfl ?_
    exact k
  | fsUse kw hkw s c =>
    rcases hm : ms.mem.malloc (.bytes s) with ⟨a₀, m₀⟩
    simp only [Silent.run, hm] at h
    obtain ⟨m₂, h₂, h⟩ := Res.bind_eq_ok h
    simp only [Silent.tokens, List.append_assoc, List.cons_append, List.nil_append]
    have key : Run ⟨e, ⟨.n .fsUse, .none⟩ :: σ, none, { ms with mem := m' }, t⟩ ts c' := by
      refine Run.red1 (lhs := .bareLine) (act := []) 0 _ t _
        (by decide) rfl ?_
      exact k
    rcases hkw with rfl | rfl | rfl <;>
      refine Run.shift rfl (Run.shiftStr (token_of hm) rfl (c.steps h₂ (Run.shift rfl ?_)))
    · skip
      refine Run.red4 (lhs := .fsUse) (act := [.free 2]) 0 { ms with mem := m' } t .none
        (by decide) (by action [MState.free, h]) ?_
      exact key
    · skip
      refine Run.red4 (lhs := .fsUse) (act := [.free 2]) 0 { ms with mem := m' } t .none
        (by decide) (by action [MState.free, h]) ?_
      exact key
    · skip
      refine Run.red4 (lhs := .fsUse) (act := [.free 2]) 0 { ms with mem := m' } t .none
        (by decide) (by action [MState.free, h]) ?_
      exact key
  | genUser u v i is r s g =>
    rcases hu : buildMaybe u ms.mem with ⟨a, m₁⟩
    rcases hv : buildMaybe v m₁ with ⟨b, m₂⟩
    simp only [Silent.run, hu, hv] at h
    obtain ⟨⟨l, m₃⟩, h₃, h⟩ := Res.bind_eq_ok h
    obtain ⟨⟨c, m₄⟩, h₄, h⟩ := Res.bind_eq_ok h
    obtain ⟨⟨d, m₅⟩, h₅, h⟩ := Res.bind_eq_ok h
    obtain ⟨⟨f, m₆⟩, h₆, h⟩ := Res.bind_eq_ok h
    obtain ⟨m₇, h₇, h⟩ := Res.bind_eq_ok h
    obtain ⟨m₈, h₈, h⟩ := Res.bind_eq_ok h
    obtain ⟨m₉, h₉, h⟩ := Res.bind_eq_ok h
    obtain ⟨n₁, j₁, h⟩ := Res.bind_eq_ok h
    obtain ⟨n₂, j₂, h⟩ := Res.bind_eq_ok h
    simp only [Silent.tokens, List.append_assoc, List.cons_append, List.nil_append]
    refine Run.shift rfl (Run.shift rfl (maybe_steps u hu (maybe_steps v hv (slItems_steps i is h₃
      (Run.shift rfl (r.buildSteps h₄ (Run.shift rfl (s.buildSteps h₅ ?_))))))))
    cases g with
    | none =>
      cases h₆
      cases h
      refine Run.shift rfl ?_
      refine Run.red10 (lhs := .genUser) (act := [.free 3, .free 4, .freeList 5, .free 7, .free 9]) 0 { ms with mem := m' } t .none
        (by decide) (by action [MState.free, MState.freeList, h₇, h₈, h₉, j₁, j₂]) ?_
      refine Run.red1 (lhs := .bareLine) (act := []) 0 _ t _
        (by decide) rfl ?_
      exact k
    | some g =>
      obtain ⟨⟨f', m₆'⟩, h₆', h₀⟩ := Res.bind_eq_ok h₆
      cases h₀
      refine Run.shift rfl (g.buildSteps h₆' (Run.shift rfl ?_))
      refine Run.red12 (lhs := .genUser) (act := [.free 3, .free 4, .freeList 5, .free 7, .free 9, .free 11]) 0 { ms with mem := m' } t .none
        (by decide) (by action [MState.free, MState.freeList, h₇, h₈, h₉, j₁, j₂, h]) ?_
      refine Run.red1 (lhs := .bareLine) (act := []) 0 _ t _
        (by decide) rfl ?_
      exact k
  | typebounds s u =>
    rcases hm : ms.mem.malloc (.bytes s) with ⟨a₀, m₀⟩
    rcases hn : m₀.malloc (.bytes u) with ⟨a₁, m₁⟩
    simp only [Silent.run, hm, hn] at h
    obtain ⟨m₂, h₂, h⟩ := Res.bind_eq_ok h
    refine Run.shift rfl (Run.shiftStr (token_of hm) rfl (Run.shiftStr (token_of hn) rfl
      (Run.shift rfl ?_)))
    refine Run.red4 (lhs := .typebounds) (act := [.free 2, .free 3]) 0 { ms with mem := m' } t .none
      (by decide) (by action [MState.free, h₂, h]) ?_
    refine Run.red1 (lhs := .bareLine) (act := []) 0 _ t _
      (by decide) rfl ?_
    exact k
  | refpolicywarn s =>
    refine refpolicywarn_steps s h ?_
    refine Run.red1 (lhs := .m4Call) (act := []) 0 _ t _
      (by decide) rfl ?_
    refine Run.red1 (lhs := .bareLine) (act := []) 0 _ t _
      (by decide) rfl ?_
    exact k
  | comment =>
    cases h
    refine Run.shift rfl ?_
    refine Run.red1 (lhs := .bareLine) (act := []) 0 _ t _
      (by decide) rfl ?_
    exact k

/-! ## Declarations -/

theorem Decl.steps (d : Decl) (line : Nat) {ms' : MState} (h : d.run line ms = .ok ms')
    (k : Run ⟨e, ⟨.n .declaration, .none⟩ :: σ, none, ms', t⟩ ts c') :
    Run ⟨e, σ, none, ms, t⟩ (d.tokens ++ ts) c' := by
  cases d with
  | type n =>
    rcases hm : ms.token n with ⟨a, ms₁⟩
    simp only [Decl.run, declareOne, hm] at h
    obtain ⟨ms₂, h₂, h⟩ := Res.bind_eq_ok h
    refine Run.shift rfl (Run.shiftStr hm rfl (Run.shift rfl ?_))
    refine Run.red3 (lhs := .typeDeclaration) (act := [.declare .type 2, .free 2]) line ms' t .none
      (by decide) (by action [h₂, h]) ?_
    refine Run.red1 (lhs := .declaration) (act := []) 0 _ t _
      (by decide) rfl ?_
    exact k
  | typeAttrs n l =>
    rcases hm : ms.token n with ⟨a, ms₁⟩
    simp only [Decl.run, hm] at h
    obtain ⟨⟨p, ms₂⟩, h₂, h⟩ := Res.bind_eq_ok h
    obtain ⟨ms₃, h₃, h⟩ := Res.bind_eq_ok h
    simp only [Decl.tokens, List.append_assoc, List.cons_append, List.nil_append]
    refine Run.shift rfl (Run.shiftStr hm rfl (Run.shift rfl (l.steps h₂ (Run.shift rfl ?_))))
    refine Run.red5 (lhs := .typeDeclaration) (act := [.declareWith .type 2 4, .free 2]) line ms' t .none
      (by decide) (by action [h₃, h]) ?_
    refine Run.red1 (lhs := .declaration) (act := []) 0 _ t _
      (by decide) rfl ?_
    exact k
  | typeAlias n l =>
    rcases hm : ms.token n with ⟨a, ms₁⟩
    simp only [Decl.run, hm] at h
    obtain ⟨⟨p, ms₂⟩, h₂, h⟩ := Res.bind_eq_ok h
    obtain ⟨ms₃, h₃, h⟩ := Res.bind_eq_ok h
    obtain ⟨ms₄, h₄, h⟩ := Res.bind_eq_ok h
    simp only [Decl.tokens, List.append_assoc, List.cons_append, List.nil_append]
    refine Run.shift rfl (Run.shiftStr hm rfl (Run.shift rfl (l.steps h₂ (Run.shift rfl ?_))))
    refine Run.red5 (lhs := .typeDeclaration) (act := [.declare .type 2, .free 2, .insertAliases 4]) line ms' t .none
      (by decide) (by action [h₃, h₄, h]) ?_
    refine Run.red1 (lhs := .declaration) (act := []) 0 _ t _
      (by decide) rfl ?_
    exact k
  | typeAliasAttrs n l al =>
    rcases hm : ms.token n with ⟨a, ms₁⟩
    simp only [Decl.run, hm] at h
    obtain ⟨⟨p, ms₂⟩, h₂, h⟩ := Res.bind_eq_ok h
    obtain ⟨⟨q, ms₃⟩, h₃, h⟩ := Res.bind_eq_ok h
    obtain ⟨ms₄, h₄, h⟩ := Res.bind_eq_ok h
    obtain ⟨ms₅, h₅, h⟩ := Res.bind_eq_ok h
    simp only [Decl.tokens, List.append_assoc, List.cons_append, List.nil_append]
    refine Run.shift rfl (Run.shiftStr hm rfl (Run.shift rfl (l.steps h₂ (Run.shift rfl (al.steps h₃
      (Run.shift rfl ?_))))))
    refine Run.red7 (lhs := .typeDeclaration) (act := [.declareWith .type 2 6, .free 2, .insertAliases 4]) line ms' t .none
      (by decide) (by action [h₄, h₅, h]) ?_
    refine Run.red1 (lhs := .declaration) (act := []) 0 _ t _
      (by decide) rfl ?_
    exact k
  | attr n =>
    rcases hm : ms.token n with ⟨a, ms₁⟩
    simp only [Decl.run, declareOne, hm] at h
    obtain ⟨ms₂, h₂, h⟩ := Res.bind_eq_ok h
    refine Run.shift rfl (Run.shiftStr hm rfl (Run.shift rfl ?_))
    refine Run.red3 (lhs := .declaration) (act := [.declare .attribute 2, .free 2]) line ms' t .none
      (by decide) (by action [h₂, h]) ?_
    exact k
  | cls n l =>
    rcases hm : ms.token n with ⟨a, ms₁⟩
    simp only [Decl.run, hm] at h
    obtain ⟨⟨p, ms₂⟩, h₂, h⟩ := Res.bind_eq_ok h
    obtain ⟨ms₃, h₃, h⟩ := Res.bind_eq_ok h
    simp only [Decl.tokens, List.append_assoc, List.cons_append, List.nil_append]
    refine Run.shift rfl (Run.shiftStr hm rfl (l.steps h₂ (Run.shift rfl ?_)))
    refine Run.red4 (lhs := .declaration) (act := [.declareWith .cls 2 3, .free 2]) line ms' t .none
      (by decide) (by action [h₃, h]) ?_
    exact k
  | role n =>
    rcases hm : ms.token n with ⟨a, ms₁⟩
    simp only [Decl.run, declareOne, hm] at h
    obtain ⟨ms₂, h₂, h⟩ := Res.bind_eq_ok h
    refine Run.shift rfl (Run.shiftStr hm rfl (Run.shift rfl ?_))
    refine Run.red3 (lhs := .declaration) (act := [.declare .role 2, .free 2]) line ms' t .none
      (by decide) (by action [h₂, h]) ?_
    exact k
  | attributeRole n =>
    rcases hm : ms.token n with ⟨a, ms₁⟩
    simp only [Decl.run, declareOne, hm] at h
    obtain ⟨ms₂, h₂, h⟩ := Res.bind_eq_ok h
    refine Run.shift rfl (Run.shiftStr hm rfl (Run.shift rfl ?_))
    refine Run.red3 (lhs := .declaration) (act := [.declare .attributeRole 2, .free 2]) line ms' t .none
      (by decide) (by action [h₂, h]) ?_
    exact k
  | bool n =>
    rcases hm : ms.token n with ⟨a, ms₁⟩
    simp only [Decl.run, declareOne, hm] at h
    obtain ⟨ms₂, h₂, h⟩ := Res.bind_eq_ok h
    refine Run.shift rfl (Run.shiftStr hm rfl (Run.shift rfl ?_))
    refine Run.red3 (lhs := .boolDeclaration) (act := [.declare .bool 2, .free 2]) line ms' t .none
      (by decide) (by action [h₂, h]) ?_
    refine Run.red1 (lhs := .declaration) (act := []) 0 _ t _
      (by decide) rfl ?_
    exact k
  | genBool n v =>
    rcases hm : ms.token n with ⟨a, ms₁⟩
    rcases hn : ms₁.token v with ⟨b, ms₂⟩
    simp only [Decl.run, declareDefault, hm, hn] at h
    obtain ⟨ms₃, h₃, h⟩ := Res.bind_eq_ok h
    obtain ⟨ms₄, h₄, h⟩ := Res.bind_eq_ok h
    refine Run.shift rfl (Run.shift rfl (Run.shiftStr hm rfl (Run.shift rfl
      (Run.shiftStr hn rfl (Run.shift rfl ?_)))))
    refine Run.red6 (lhs := .boolDeclaration) (act := [.declare .bool 3, .free 3, .free 5]) line ms' t .none
      (by decide) (by action [h₃, h₄, h]) ?_
    refine Run.red1 (lhs := .declaration) (act := []) 0 _ t _
      (by decide) rfl ?_
    exact k
  | genTunableQuoted n v =>
    rcases hm : ms.token n with ⟨a, ms₁⟩
    rcases hn : ms₁.token v with ⟨b, ms₂⟩
    simp only [Decl.run, declareDefault, hm, hn] at h
    obtain ⟨ms₃, h₃, h⟩ := Res.bind_eq_ok h
    obtain ⟨ms₄, h₄, h⟩ := Res.bind_eq_ok h
    refine Run.shift rfl (Run.shift rfl (Run.shift rfl (Run.shiftStr hm rfl (Run.shift rfl
      (Run.shift rfl (Run.shiftStr hn rfl (Run.shift rfl ?_)))))))
    refine Run.red8 (lhs := .boolDeclaration) (act := [.declare .bool 4, .free 4, .free 7]) line ms' t .none
      (by decide) (by action [h₃, h₄, h]) ?_
    refine Run.red1 (lhs := .declaration) (act := []) 0 _ t _
      (by decide) rfl ?_
    exact k
  | genTunable n v =>
    rcases hm : ms.token n with ⟨a, ms₁⟩
    rcases hn : ms₁.token v with ⟨b, ms₂⟩
    simp only [Decl.run, declareDefault, hm, hn] at h
    obtain ⟨ms₃, h₃, h⟩ := Res.bind_eq_ok h
    obtain ⟨ms₄, h₄, h⟩ := Res.bind_eq_ok h
    refine Run.shift rfl (Run.shift rfl (Run.shiftStr hm rfl (Run.shift rfl
      (Run.shiftStr hn rfl (Run.shift rfl ?_)))))
    refine Run.red6 (lhs := .boolDeclaration) (act := [.declare .bool 3, .free 3, .free 5]) line ms' t .none
      (by decide) (by action [h₃, h₄, h]) ?_
    refine Run.red1 (lhs := .declaration) (act := []) 0 _ t _
      (by decide) rfl ?_
    exact k

/-! ## Statements with one node -/

theorem Simple.steps (s : Simple) (line : Nat) {ms' : MState} (h : s.run line ms = .ok ms')
    (k : Run ⟨e, ⟨.n .bareLine, .none⟩ :: σ, none, ms', t⟩ ts c') :
    Run ⟨e, σ, none, ms, t⟩ (s.tokens ++ ts) c' := by
  cases s with
  | decl d =>
    refine d.steps line h ?_
    refine Run.red1 (lhs := .bareLine) (act := []) 0 _ t _
      (by decide) rfl ?_
    exact k
  | typeAttribute n l =>
    rcases hm : ms.token n with ⟨a, ms₁⟩
    simp only [Simple.run, runAttribute, hm] at h
    obtain ⟨⟨p, ms₂⟩, h₂, h⟩ := Res.bind_eq_ok h
    obtain ⟨ms₃, h₃, h⟩ := Res.bind_eq_ok h
    simp only [Simple.tokens, List.append_assoc, List.cons_append, List.nil_append]
    refine Run.shift rfl (Run.shiftStr hm rfl (l.steps h₂ (Run.shift rfl ?_)))
    refine Run.red4 (lhs := .typeAttribute) (act := [.insertAttribute .type 2 3, .free 2]) line ms' t .none
      (by decide) (by action [h₃, h]) ?_
    refine Run.red1 (lhs := .bareLine) (act := []) 0 _ t _
      (by decide) rfl ?_
    exact k
  | roleAttribute n l =>
    rcases hm : ms.token n with ⟨a, ms₁⟩
    simp only [Simple.run, runAttribute, hm] at h
    obtain ⟨⟨p, ms₂⟩, h₂, h⟩ := Res.bind_eq_ok h
    obtain ⟨ms₃, h₃, h⟩ := Res.bind_eq_ok h
    simp only [Simple.tokens, List.append_assoc, List.cons_append, List.nil_append]
    refine Run.shift rfl (Run.shiftStr hm rfl (l.steps h₂ (Run.shift rfl ?_)))
    refine Run.red4 (lhs := .roleAttribute) (act := [.insertAttribute .role 2 3, .free 2]) line ms' t .none
      (by decide) (by action [h₃, h]) ?_
    refine Run.red1 (lhs := .bareLine) (act := []) 0 _ t _
      (by decide) rfl ?_
    exact k
  | typeAlias n l =>
    rcases hm : ms.token n with ⟨a, ms₁⟩
    simp only [Simple.run, hm] at h
    obtain ⟨⟨p, ms₂⟩, h₂, h⟩ := Res.bind_eq_ok h
    obtain ⟨ms₃, h₃, h⟩ := Res.bind_eq_ok h
    obtain ⟨ms₄, h₄, h⟩ := Res.bind_eq_ok h
    simp only [Simple.tokens, List.append_assoc, List.cons_append, List.nil_append]
    refine Run.shift rfl (Run.shiftStr hm rfl (Run.shift rfl (l.steps h₂ (Run.shift rfl ?_))))
    refine Run.red5 (lhs := .typeAlias) (act := [.insertTypeAlias 2, .insertAliases 4, .free 2]) line ms' t .none
      (by decide) (by action [h₃, h₄, h]) ?_
    refine Run.red1 (lhs := .bareLine) (act := []) 0 _ t _
      (by decide) rfl ?_
    exact k
  | rule fl s u c p =>
    simp only [Simple.run] at h
    obtain ⟨⟨s', ms₁⟩, h₁, h⟩ := Res.bind_eq_ok h
    obtain ⟨⟨u', ms₂⟩, h₂, h⟩ := Res.bind_eq_ok h
    obtain ⟨⟨c₁, ms₃⟩, h₃, h⟩ := Res.bind_eq_ok h
    obtain ⟨⟨p', ms₄⟩, h₄, h⟩ := Res.bind_eq_ok h
    simp only [Simple.tokens, List.append_assoc, List.cons_append, List.nil_append]
    have key : Run ⟨e, ⟨.n .avType, .av fl⟩ :: σ, none, ms, t⟩
        (s.tokens ++ (u.tokens ++ tColon :: (c.tokens ++ (p.tokens ++ tSemi :: ts)))) c' := by
      refine s.steps h₁ (u.steps h₂ (Run.shift rfl (c.steps h₃ (p.steps h₄ (Run.shift rfl ?_)))))
      refine Run.red7 (lhs := .rule) (act := [.insertAvRule 1 2 3 5 6]) line ms' t .none
        (by decide) (by action [h]) ?_
      refine Run.red1 (lhs := .bareLine) (act := []) 0 _ t _
        (by decide) rfl ?_
      exact k
    cases fl
    · refine Run.shift rfl ?_
      refine Run.red1 (lhs := .avType) (act := [.av .allow]) 0 _ t _
        (by decide) rfl ?_
      exact key
    · refine Run.shift rfl ?_
      refine Run.red1 (lhs := .avType) (act := [.av .auditallow]) 0 _ t _
        (by decide) rfl ?_
      exact key
    · refine Run.shift rfl ?_
      refine Run.red1 (lhs := .avType) (act := [.av .dontaudit]) 0 _ t _
        (by decide) rfl ?_
      exact key
    · refine Run.shift rfl ?_
      refine Run.red1 (lhs := .avType) (act := [.av .neverallow]) 0 _ t _
        (by decide) rfl ?_
      exact key
  | xrule fl s u c o p =>
    simp only [Simple.run] at h
    obtain ⟨⟨s', ms₁⟩, h₁, h⟩ := Res.bind_eq_ok h
    obtain ⟨⟨u', ms₂⟩, h₂, h⟩ := Res.bind_eq_ok h
    obtain ⟨⟨c₁, ms₃⟩, h₃, h⟩ := Res.bind_eq_ok h
    rcases hm : ms₃.token o with ⟨a, ms₄⟩
    simp only [hm] at h
    obtain ⟨⟨p', ms₅⟩, h₅, h⟩ := Res.bind_eq_ok h
    obtain ⟨ms₆, h₆, h⟩ := Res.bind_eq_ok h
    simp only [Simple.tokens, List.append_assoc, List.cons_append, List.nil_append]
    have key : Run ⟨e, ⟨.n .xpermAvType, .av fl⟩ :: σ, none, ms, t⟩
        (s.tokens ++ (u.tokens ++ tColon :: (c.tokens ++ .string o :: (p.tokens ++ tSemi :: ts))))
        c' := by
      refine s.steps h₁ (u.steps h₂ (Run.shift rfl (c.steps h₃ (Run.shiftStr hm rfl (p.steps h₅
        (Run.shift rfl ?_))))))
      refine Run.red8 (lhs := .xpermRule) (act := [.insertXpermAvRule 1 2 3 5 6 7, .free 6]) line ms' t .none
        (by decide) (by action [h₆, h]) ?_
      refine Run.red1 (lhs := .bareLine) (act := []) 0 _ t _
        (by decide) rfl ?_
      exact k
    cases fl
    · refine Run.shift rfl ?_
      refine Run.red1 (lhs := .xpermAvType) (act := [.av .allow]) 0 _ t _
        (by decide) rfl ?_
      exact key
    · refine Run.shift rfl ?_
      refine Run.red1 (lhs := .xpermAvType) (act := [.av .auditallow]) 0 _ t _
        (by decide) rfl ?_
      exact key
    · refine Run.shift rfl ?_
      refine Run.red1 (lhs := .xpermAvType) (act := [.av .dontaudit]) 0 _ t _
        (by decide) rfl ?_
      exact key
    · refine Run.shift rfl ?_
      refine Run.red1 (lhs := .xpermAvType) (act := [.av .neverallow]) 0 _ t _
        (by decide) rfl ?_
      exact key
  | roleAllow f u =>
    simp only [Simple.run] at h
    obtain ⟨⟨p, ms₁⟩, h₁, h⟩ := Res.bind_eq_ok h
    obtain ⟨⟨q, ms₂⟩, h₂, h⟩ := Res.bind_eq_ok h
    simp only [Simple.tokens, List.append_assoc, List.cons_append, List.nil_append]
    refine Run.shift rfl ?_
    refine Run.red1 (lhs := .avType) (act := [.av .allow]) 0 _ t _
      (by decide) rfl ?_
    refine f.steps h₁ (u.steps h₂ (Run.shift rfl ?_))
    refine Run.red4 (lhs := .roleAllow) (act := [.expectAllow 1 [.freeList 2, .freeList 3], .insertRoleAllow 2 3]) line ms' t .none
      (by decide) (by action [h]) ?_
    refine Run.red1 (lhs := .bareLine) (act := []) 0 _ t _
      (by decide) rfl ?_
    exact k
  | roleTypes r l =>
    rcases hm : ms.token r with ⟨a, ms₁⟩
    simp only [Simple.run, hm] at h
    obtain ⟨⟨p, ms₂⟩, h₂, h⟩ := Res.bind_eq_ok h
    obtain ⟨ms₃, h₃, h⟩ := Res.bind_eq_ok h
    simp only [Simple.tokens, List.append_assoc, List.cons_append, List.nil_append]
    refine Run.shift rfl (Run.shiftStr hm rfl (Run.shift rfl (l.steps h₂ (Run.shift rfl ?_))))
    refine Run.red5 (lhs := .roleTypes) (act := [.insertRoleTypes 2 4, .free 2]) line ms' t .none
      (by decide) (by action [h₃, h]) ?_
    refine Run.red1 (lhs := .bareLine) (act := []) 0 _ t _
      (by decide) rfl ?_
    exact k
  | typeTransition s u c d n =>
    simp only [Simple.run, runTransition] at h
    obtain ⟨⟨s', ms₁⟩, h₁, h⟩ := Res.bind_eq_ok h
    obtain ⟨⟨u', ms₂⟩, h₂, h⟩ := Res.bind_eq_ok h
    obtain ⟨⟨c₁, ms₃⟩, h₃, h⟩ := Res.bind_eq_ok h
    rcases hm : ms₃.token d with ⟨a, ms₄⟩
    simp only [hm] at h
    simp only [Simple.tokens, List.append_assoc, List.cons_append, List.nil_append]
    cases n with
    | none =>
      simp only [nameToken] at h
      obtain ⟨ms₆, h₆, h⟩ := Res.bind_eq_ok h
      obtain ⟨ms₇, h₇, h⟩ := Res.bind_eq_ok h
      cases h
      refine Run.shift rfl (s.steps h₁ (u.steps h₂ (Run.shift rfl (c.steps h₃ (Run.shiftStr hm rfl
        (Run.shift rfl ?_))))))
      refine Run.red7 (lhs := .typeTransition) (act := [.insertTransition .tt 2 3 5 6, .free 6]) line ms' t .none
        (by decide) (by action [h₆, h₇]) ?_
      refine Run.red1 (lhs := .bareLine) (act := []) 0 _ t _
        (by decide) rfl ?_
      exact k
    | some n =>
      rcases hn : ms₄.token n with ⟨b, ms₅⟩
      simp only [nameToken, hn] at h
      obtain ⟨ms₆, h₆, h⟩ := Res.bind_eq_ok h
      obtain ⟨ms₇, h₇, h⟩ := Res.bind_eq_ok h
      simp only [MState.freeHeld] at h
      refine Run.shift rfl (s.steps h₁ (u.steps h₂ (Run.shift rfl (c.steps h₃ (Run.shiftStr hm rfl
        (Run.shiftStr hn rfl (Run.shift rfl ?_)))))))
      refine Run.red8 (lhs := .typeTransition) (act := [.insertNamedTransition 2 3 5 6 7, .free 6, .free 7]) line ms' t .none
        (by decide) (by action [h₆, h₇, h]) ?_
      refine Run.red1 (lhs := .bareLine) (act := []) 0 _ t _
        (by decide) rfl ?_
      exact k
  | typeMember s u c d =>
    simp only [Simple.run, runTransition] at h
    obtain ⟨⟨s', ms₁⟩, h₁, h⟩ := Res.bind_eq_ok h
    obtain ⟨⟨u', ms₂⟩, h₂, h⟩ := Res.bind_eq_ok h
    obtain ⟨⟨c₁, ms₃⟩, h₃, h⟩ := Res.bind_eq_ok h
    rcases hm : ms₃.token d with ⟨a, ms₄⟩
    simp only [hm, nameToken] at h
    obtain ⟨ms₆, h₆, h⟩ := Res.bind_eq_ok h
    obtain ⟨ms₇, h₇, h⟩ := Res.bind_eq_ok h
    cases h
    simp only [Simple.tokens, List.append_assoc, List.cons_append, List.nil_append]
    refine Run.shift rfl (s.steps h₁ (u.steps h₂ (Run.shift rfl (c.steps h₃ (Run.shiftStr hm rfl
      (Run.shift rfl ?_))))))
    refine Run.red7 (lhs := .typeTransition) (act := [.insertTransition .tm 2 3 5 6, .free 6]) line ms' t .none
      (by decide) (by action [h₆, h₇]) ?_
    refine Run.red1 (lhs := .bareLine) (act := []) 0 _ t _
      (by decide) rfl ?_
    exact k
  | typeChange s u c d =>
    simp only [Simple.run, runTransition] at h
    obtain ⟨⟨s', ms₁⟩, h₁, h⟩ := Res.bind_eq_ok h
    obtain ⟨⟨u', ms₂⟩, h₂, h⟩ := Res.bind_eq_ok h
    obtain ⟨⟨c₁, ms₃⟩, h₃, h⟩ := Res.bind_eq_ok h
    rcases hm : ms₃.token d with ⟨a, ms₄⟩
    simp only [hm, nameToken] at h
    obtain ⟨ms₆, h₆, h⟩ := Res.bind_eq_ok h
    obtain ⟨ms₇, h₇, h⟩ := Res.bind_eq_ok h
    cases h
    simp only [Simple.tokens, List.append_assoc, List.cons_append, List.nil_append]
    refine Run.shift rfl (s.steps h₁ (u.steps h₂ (Run.shift rfl (c.steps h₃ (Run.shiftStr hm rfl
      (Run.shift rfl ?_))))))
    refine Run.red7 (lhs := .typeTransition) (act := [.insertTransition .tc 2 3 5 6, .free 6]) line ms' t .none
      (by decide) (by action [h₆, h₇]) ?_
    refine Run.red1 (lhs := .bareLine) (act := []) 0 _ t _
      (by decide) rfl ?_
    exact k
  | rangeTransition s u c r =>
    simp only [Simple.run] at h
    obtain ⟨⟨s', ms₁⟩, h₁, h⟩ := Res.bind_eq_ok h
    obtain ⟨⟨u', ms₂⟩, h₂, h⟩ := Res.bind_eq_ok h
    obtain ⟨⟨c₁, ms₃⟩, h₃, h⟩ := Res.bind_eq_ok h
    obtain ⟨⟨a, ms₄⟩, h₄, h⟩ := Res.bind_eq_ok h
    obtain ⟨ms₅, h₅, h⟩ := Res.bind_eq_ok h
    simp only [Simple.tokens, List.append_assoc, List.cons_append, List.nil_append]
    refine Run.shift rfl (s.steps h₁ (u.steps h₂ (Run.shift rfl (c.steps h₃ (r.steps h₄
      (Run.shift rfl ?_))))))
    refine Run.red7 (lhs := .rangeTransition) (act := [.insertTransition .rt 2 3 5 6, .free 6]) line ms' t .none
      (by decide) (by action [h₅, h]) ?_
    refine Run.red1 (lhs := .bareLine) (act := []) 0 _ t _
      (by decide) rfl ?_
    exact k
  | roleTransition s u d =>
    simp only [Simple.run] at h
    obtain ⟨⟨s', ms₁⟩, h₁, h⟩ := Res.bind_eq_ok h
    obtain ⟨⟨u', ms₂⟩, h₂, h⟩ := Res.bind_eq_ok h
    rcases hm : ms₂.token d with ⟨a, ms₃⟩
    simp only [hm] at h
    obtain ⟨ms₄, h₄, h⟩ := Res.bind_eq_ok h
    simp only [Simple.tokens, List.append_assoc, List.cons_append, List.nil_append]
    refine Run.shift rfl (s.steps h₁ (u.steps h₂ (Run.shiftStr hm rfl (Run.shift rfl ?_))))
    refine Run.red5 (lhs := .roleTransition) (act := [.insertRoleTransition 2 3 4, .free 4]) line ms' t .none
      (by decide) (by action [h₄, h]) ?_
    refine Run.red1 (lhs := .bareLine) (act := []) 0 _ t _
      (by decide) rfl ?_
    exact k
  | roleTransitionClass s u c d =>
    simp only [Simple.run] at h
    obtain ⟨⟨s', ms₁⟩, h₁, h⟩ := Res.bind_eq_ok h
    obtain ⟨⟨u', ms₂⟩, h₂, h⟩ := Res.bind_eq_ok h
    obtain ⟨⟨c₁, ms₃⟩, h₃, h⟩ := Res.bind_eq_ok h
    rcases hm : ms₃.token d with ⟨a, ms₄⟩
    simp only [hm] at h
    obtain ⟨ms₅, h₅, h⟩ := Res.bind_eq_ok h
    simp only [Simple.tokens, List.append_assoc, List.cons_append, List.nil_append]
    refine Run.shift rfl (s.steps h₁ (u.steps h₂ (Run.shift rfl (c.steps h₃ (Run.shiftStr hm rfl
      (Run.shift rfl ?_))))))
    refine Run.red7 (lhs := .roleTransition) (act := [.insertRoleTransitionClass 2 3 5 6, .free 6]) line ms' t .none
      (by decide) (by action [h₅, h]) ?_
    refine Run.red1 (lhs := .bareLine) (act := []) 0 _ t _
      (by decide) rfl ?_
    exact k
  | call n l =>
    rcases hm : ms.token n with ⟨a, ms₁⟩
    simp only [Simple.run, hm] at h
    obtain ⟨⟨p, ms₂⟩, h₂, h⟩ := Res.bind_eq_ok h
    obtain ⟨ms₃, h₃, h₄⟩ := Res.bind_eq_ok h
    simp only [Simple.tokens, List.append_assoc, List.cons_append, List.nil_append]
    cases l with
    | none =>
      cases h₂
      refine Run.shiftStr hm rfl (Run.shift rfl (Run.shift rfl ?_))
      refine Run.red3 (lhs := .interfaceCall) (act := [.insertCallNoArgs 1, .free 1]) line ms' t .none
        (by decide) (by action [h₃, h₄]) ?_
      refine Run.red1 (lhs := .bareLine) (act := []) 0 _ t _
        (by decide) rfl ?_
      exact k
    | some l =>
      refine Run.shiftStr hm rfl (Run.shift rfl (l.steps h₂ (Run.shift rfl ?_)))
      refine Run.red4 (lhs := .interfaceCall) (act := [.insertCall 1 3, .free 1]) line ms' t .none
        (by decide) (by action [h₃, h₄]) ?_
      refine Run.red1 (lhs := .bareLine) (act := []) 0 _ t _
        (by decide) rfl ?_
      exact k
  | simpleMacro n =>
    rcases hm : ms.token n with ⟨a, ms₁⟩
    simp only [Simple.run, hm] at h
    refine Run.shiftStr hm rfl ?_
    refine Run.red1 (lhs := .m4SimpleMacro) (act := [.insertM4SimpleMacro 1]) line ms' t .none
      (by decide) (by action [h]) ?_
    refine Run.red1 (lhs := .bareLine) (act := []) 0 _ t _
      (by decide) rfl ?_
    exact k
  | permissive n =>
    rcases hm : ms.token n with ⟨a, ms₁⟩
    simp only [Simple.run, hm] at h
    obtain ⟨ms₂, h₂, h⟩ := Res.bind_eq_ok h
    refine Run.shift rfl (Run.shiftStr hm rfl (Run.shift rfl ?_))
    refine Run.red3 (lhs := .permissive) (act := [.insertPermissive 2, .free 2]) line ms' t .none
      (by decide) (by action [h₂, h]) ?_
    refine Run.red1 (lhs := .bareLine) (act := []) 0 _ t _
      (by decide) rfl ?_
    exact k
  | semicolon =>
    simp only [Simple.run] at h
    refine Run.shift rfl ?_
    refine Run.red1 (lhs := .bareLine) (act := [.insertSemicolon]) line ms' t .none
      (by decide) (by action [h]) ?_
    exact k

end Selint
