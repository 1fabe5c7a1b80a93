import Verif.Lemmas.LrLook
/-!
# Derivations with their effects

What the symbols on the stack were made from when the parser makes possible moves, in whatever
order: a token, a condition, or a production with the effect of its action. Conditions are
ambiguous; since their actions have no effect but giving back memory, they are kept as a sequence
of operands and operators.
-/

namespace Selint
namespace Lr

/-- The operators of conditions (parse.y:702-712). -/
inductive CondOp where
  | and | or | xor | equal | notEqual

/-- The token of an operator. -/
def CondOp.punct : CondOp → Punct
  | .and => .and
  | .or => .or
  | .xor => .xor
  | .equal => .equal
  | .notEqual => .notEqual

mutual
/-- An operand of a condition. -/
inductive Operand where
  | str (s : Str)
  | not (o : Operand)
  | paren (c : Flat)
/-- A condition without its grouping. -/
inductive Flat where
  | one (o : Operand)
  | more (o : Operand) (op : CondOp) (c : Flat)
end

mutual
/-- The tokens of an operand. -/
def Operand.toks : Operand → List Token
  | .str s => [.string s]
  | .not o => .p .not :: o.toks
  | .paren c => .p .openParen :: (c.toks ++ [.p .closeParen])
/-- The tokens of a condition. -/
def Flat.toks : Flat → List Token
  | .one o => o.toks
  | .more o op c => o.toks ++ .p op.punct :: c.toks
end

/-- Two conditions and an operator. -/
def Flat.join : Flat → CondOp → Flat → Flat
  | .one o, op, d => .more o op d
  | .more o op' c, op, d => .more o op' (c.join op d)

theorem Flat.join_toks : ∀ (c : Flat) (op : CondOp) (d : Flat),
    (c.join op d).toks = c.toks ++ .p op.punct :: d.toks
  | .one o, op, d => by simp only [Flat.join, Flat.toks]
  | .more o op' c, op, d => by
    simp only [Flat.join, Flat.toks, Flat.join_toks c op d, List.append_assoc, List.cons_append]

/-- A negated condition. -/
def Flat.neg : Flat → Flat
  | .one o => .one (.not o)
  | .more o op c => .more (.not o) op c

theorem Flat.neg_toks (c : Flat) : c.neg.toks = .p .not :: c.toks := by
  cases c <;> simp [Flat.neg, Flat.toks, Operand.toks]

mutual
/-- A symbol, on top of a stack with these symbols and values: the tokens it is made from, its
value, and the state before and after. The lines are arbitrary. -/
inductive Der (expected : PlainFlavor) : Sym → List Sym → List FVal → PState → List Token → FVal →
    PState → Prop
  | tok (t : Option Token) {ss : List Sym} {σ : List FVal} {st : PState} :
      Der expected (tokenSym t) ss σ st t.toList (tokenVal t) st
  | cond (c : Flat) {ss : List Sym} {σ : List FVal} {st : PState} :
      Der expected (.n .condition) ss σ st c.toks .none st
  | node {r : Rule} {line : Nat} {ss ss' : List Sym} {σ' bvals vals : List FVal} {us : List Token}
      {st st₁ st' : PState} {w : FVal} :
      r ∈ rules → r.lhs ≠ .condition → ss = r.before.reverse ++ ss' →
      bvals.length = r.before.length → (r.onlyFirst = true → ss = []) →
      Ders expected r.rhs ss (bvals.reverse ++ σ') st us vals st₁ →
      evalAll expected line (bvals ++ vals) r.action ⟨st₁, .none⟩ = some ⟨st', w⟩ →
      Der expected (.n r.lhs) ss (bvals.reverse ++ σ') st us w st'
/-- Several symbols. -/
inductive Ders (expected : PlainFlavor) : List Sym → List Sym → List FVal → PState → List Token →
    List FVal → PState → Prop
  | nil {ss : List Sym} {σ : List FVal} {st : PState} : Ders expected [] ss σ st [] [] st
  | cons {s : Sym} {xs ss : List Sym} {σ vs : List FVal} {st st₁ st₂ : PState}
      {us us' : List Token} {v : FVal} : Der expected s ss σ st us v st₁ →
      Ders expected xs (s :: ss) (v :: σ) st₁ us' vs st₂ →
      Ders expected (s :: xs) ss σ st (us ++ us') (v :: vs) st₂
end

variable {expected : PlainFlavor} {mod : Str} {maps : Maps}

theorem Ders.snoc {s : Sym} {v : FVal} {us' : List Token} {st'' : PState} :
    ∀ {xs : List Sym} {ss : List Sym} {vals σ : List FVal} {st : PState} {us : List Token}
      {st' : PState},
    Ders expected xs ss σ st us vals st' →
    Der expected s (xs.reverse ++ ss) (vals.reverse ++ σ) st' us' v st'' →
    Ders expected (xs ++ [s]) ss σ st (us ++ us') (vals ++ [v]) st''
  | [], ss, vals, σ, st, us, st', h, hs => by
    cases h
    have := Ders.cons hs .nil
    simpa using this
  | x :: xs, ss, vals, σ, st, us, st', h, hs => by
    cases h with
    | cons h₁ h₂ =>
      rw [List.append_assoc]
      refine .cons h₁ (Ders.snoc h₂ ?_)
      simpa using hs

theorem Der.tok_inv {s : Sym} {ss σ st us v st'} (h : Der expected s ss σ st us v st') {x : Term}
    (hs : s = .t x) : ∃ t, tokenSym t = .t x ∧ us = t.toList ∧ v = tokenVal t ∧ st' = st := by
  cases h with
  | tok t => exact ⟨t, hs, rfl, rfl, rfl⟩
  | cond c => cases hs
  | node => cases hs

theorem tokenSym_ne_nt {t : Option Token} {x : Nt} : tokenSym t ≠ .n x := by
  cases t with
  | none => exact nofun
  | some t => cases t <;> exact nofun

theorem Der.cond_inv {s : Sym} {ss σ st us v st'} (h : Der expected s ss σ st us v st')
    (hs : s = .n .condition) : ∃ c : Flat, us = c.toks ∧ v = .none ∧ st' = st := by
  cases h with
  | tok t => exact absurd hs tokenSym_ne_nt
  | cond c => exact ⟨c, rfl, rfl, rfl⟩
  | node _ hne => exact absurd (Sym.n.inj hs) hne

theorem Der.punct_inv {s : Sym} {ss σ st us v st'} (h : Der expected s ss σ st us v st') {x : Punct}
    (hs : s = .t (.p x)) : us = [.p x] ∧ st' = st := by
  obtain ⟨t, ht, rfl, -, rfl⟩ := h.tok_inv hs
  cases t with
  | none => cases ht
  | some t => cases t <;> cases ht <;> exact ⟨rfl, rfl⟩

theorem Der.string_inv {s : Sym} {ss σ st us v st'} (h : Der expected s ss σ st us v st')
    (hs : s = .t .string) : ∃ n, us = [.string n] ∧ st' = st := by
  obtain ⟨t, ht, rfl, -, rfl⟩ := h.tok_inv hs
  cases t with
  | none => cases ht
  | some t => cases t <;> cases ht <;> exact ⟨_, rfl, rfl⟩

/-- The productions of conditions. -/
def condRules : List Rule := [
  ⟨.condition, [str], [.free 1], [], false⟩,
  ⟨.condition, [P .not, .n .condition], [], [], false⟩,
  ⟨.condition, [.n .condition, P .and, .n .condition], [], [], false⟩,
  ⟨.condition, [.n .condition, P .or, .n .condition], [], [], false⟩,
  ⟨.condition, [.n .condition, P .xor, .n .condition], [], [], false⟩,
  ⟨.condition, [.n .condition, P .equal, .n .condition], [], [], false⟩,
  ⟨.condition, [.n .condition, P .notEqual, .n .condition], [], [], false⟩,
  ⟨.condition, [op, .n .condition, cl], [], [], false⟩]

theorem mem_condRules : ∀ r ∈ rules, r.lhs = .condition → r ∈ condRules := by decide +kernel

theorem Ders.binary {ss σ st us vals st'} (o : CondOp)
    (h : Ders expected [.n .condition, .t (.p o.punct), .n .condition] ss σ st us vals st') :
    ∃ c : Flat, us = c.toks ∧ st' = st := by
  cases h with
  | cons h₁ h =>
  cases h with
  | cons h₂ h =>
  cases h with
  | cons h₃ h =>
  cases h
  obtain ⟨c, rfl, -, rfl⟩ := h₁.cond_inv rfl
  obtain ⟨rfl, rfl⟩ := h₂.punct_inv rfl
  obtain ⟨d, rfl, -, rfl⟩ := h₃.cond_inv rfl
  exact ⟨c.join o d, by simp [Flat.join_toks], rfl⟩

/-- A condition that was put together. -/
theorem Ders.condition {r : Rule} (hr : r ∈ condRules) {ss σ st us vals st' line fs w st''}
    (h : Ders expected r.rhs ss σ st us vals st')
    (he : evalAll expected line fs r.action ⟨st', .none⟩ = some ⟨st'', w⟩) :
    ∃ c : Flat, us = c.toks ∧ st'' = st ∧ w = .none := by
  have key : (∃ c : Flat, us = c.toks ∧ st' = st) := by
    simp only [condRules, List.mem_cons, List.not_mem_nil, or_false] at hr
    rcases hr with rfl | rfl | rfl | rfl | rfl | rfl | rfl | rfl
    · cases h with
      | cons h₁ h =>
      cases h
      obtain ⟨n, rfl, rfl⟩ := h₁.string_inv rfl
      exact ⟨.one (.str n), rfl, rfl⟩
    · cases h with
      | cons h₁ h =>
      cases h with
      | cons h₂ h =>
      cases h
      obtain ⟨rfl, rfl⟩ := h₁.punct_inv rfl
      obtain ⟨c, rfl, -, rfl⟩ := h₂.cond_inv rfl
      exact ⟨c.neg, by simp [Flat.neg_toks], rfl⟩
    · exact h.binary .and
    · exact h.binary .or
    · exact h.binary .xor
    · exact h.binary .equal
    · exact h.binary .notEqual
    · cases h with
      | cons h₁ h =>
      cases h with
      | cons h₂ h =>
      cases h with
      | cons h₃ h =>
      cases h
      obtain ⟨rfl, rfl⟩ := h₁.punct_inv rfl
      obtain ⟨c, rfl, -, rfl⟩ := h₂.cond_inv rfl
      obtain ⟨rfl, rfl⟩ := h₃.punct_inv rfl
      exact ⟨.one (.paren c), by simp [Flat.toks, Operand.toks], rfl⟩
  obtain ⟨c, hc, rfl⟩ := key
  refine ⟨c, hc, ?_⟩
  simp only [condRules, List.mem_cons, List.not_mem_nil, or_false] at hr
  rcases hr with rfl | rfl | rfl | rfl | rfl | rfl | rfl | rfl <;> cases he <;> exact ⟨rfl, rfl⟩

/-- The symbols on the stack and what they were made from. -/
inductive Derived (expected : PlainFlavor) (mod : Str) (maps : Maps) :
    List Sym → List FVal → PState → List Token → Prop
  | nil : Derived expected mod maps [] [] (PState.init expected mod maps) []
  | cons {ss σ st us s v us' st'} : Derived expected mod maps ss σ st us →
      Der expected s ss σ st us' v st' →
      Derived expected mod maps (s :: ss) (v :: σ) st' (us ++ us')

theorem Derived.length {ss σ st us} (h : Derived expected mod maps ss σ st us) :
    σ.length = ss.length := by
  induction h with
  | nil => rfl
  | cons _ _ ih => simp [ih]

theorem Derived.split {S : List Sym} : ∀ {Q : List Sym} {fs : List FVal} {st : PState}
    {us : List Token}, Derived expected mod maps (Q ++ S) fs st us →
    ∃ vals σ st₀ us₀ us₁, fs = vals.reverse ++ σ ∧ vals.length = Q.length ∧ us = us₀ ++ us₁ ∧
      Derived expected mod maps S σ st₀ us₀ ∧ Ders expected Q.reverse S σ st₀ us₁ vals st
  | [], fs, st, us, h => ⟨[], fs, st, us, [], rfl, rfl, by simp, h, .nil⟩
  | q :: Q, fs, st, us, h => by
    cases h with
    | cons h hs =>
      obtain ⟨vals, σ, st₀, us₀, us₁, rfl, hl, rfl, h₀, h₁⟩ := Derived.split h
      refine ⟨vals ++ [_], σ, st₀, us₀, us₁ ++ _, by simp; rfl, by simp [hl],
        List.append_assoc .., h₀, ?_⟩
      rw [List.reverse_cons]
      exact h₁.snoc (by simpa using hs)

/-- What the parser's stack was made from. -/
def Comes (expected : PlainFlavor) (mod : Str) (maps : Maps) (ts : List Token) (c : Config)
    (st : PState) (fs : List FVal) : Prop :=
  ∃ f σ us vs, fs = f ++ σ ∧ ts = us ++ vs ∧ LookIs c.look f vs ∧
    Derived expected mod maps (c.stack.map Entry.sym) σ st us

variable {ts : List Token} {c c' : Config} {st st' : PState} {fs : List FVal}

theorem Comes.read (h : Comes expected mod maps ts c st fs) (hl : c.look = none)
    (t : Option Token) :
    Comes expected mod maps (ts ++ t.toList) (readToken c t) st (tokenVal t :: fs) := by
  obtain ⟨f, σ, us, vs, rfl, rfl, hlook, he⟩ := h
  rw [hl] at hlook
  obtain ⟨rfl, rfl⟩ := hlook
  obtain ⟨v, h₁, h₂⟩ := readToken_look c t
  refine ⟨[tokenVal t], σ, us, t.toList, rfl, by simp, ?_, by rw [h₂]; exact he⟩
  rw [h₁]
  exact ⟨t, rfl, rfl, rfl⟩

theorem Comes.shift {e : Entry} (h : Comes expected mod maps ts c st fs) (hl : c.look = some e) :
    Comes expected mod maps ts { c with stack := e :: c.stack, look := none } st fs := by
  obtain ⟨f, σ, us, vs, rfl, rfl, hlook, he⟩ := h
  rw [hl] at hlook
  obtain ⟨t, hs, rfl, rfl⟩ := hlook
  refine ⟨[], tokenVal t :: σ, us ++ t.toList, [], rfl, by simp, ⟨rfl, rfl⟩, ?_⟩
  rw [List.map_cons, hs]
  exact .cons he (.tok t)

theorem Comes.reduce {r : Rule} {line : Nat} {w v} (h : Comes expected mod maps ts c st fs)
    (hf : c.fits r = true)
    (he : evalAll expected line (((fs.drop c.look.toList.length).take
        (r.before.length + r.rhs.length)).reverse) r.action ⟨st, .none⟩ = some ⟨st', w⟩)
    (hl : c'.look = c.look) (hs : c'.stack = ⟨.n r.lhs, v⟩ :: c.stack.drop r.rhs.length) :
    Comes expected mod maps ts c' st' (fs.take c.look.toList.length ++
        w :: (fs.drop c.look.toList.length).drop r.rhs.length) := by
  obtain ⟨f, σ, us, vs, rfl, rfl, hlook, hex⟩ := h
  obtain ⟨B, P, S, hst, hB, hP, hr, hfirst⟩ := fits_split hf
  rw [← hlook.length] at he ⊢
  rw [List.drop_left] at he ⊢
  rw [List.take_left]
  rw [hst, List.map_append, List.map_reverse, hP] at hex
  obtain ⟨vals, σ₁, st₀, us₀, us₁, rfl, hlen, rfl, h₀, h₁⟩ := hex.split
  rw [List.reverse_reverse] at h₁
  rw [List.length_reverse] at hlen
  rw [List.map_append, List.map_reverse, hB] at h₀ h₁
  obtain ⟨bvals, σ₂, _, _, _, rfl, hblen, -, -, -⟩ := h₀.split
  rw [List.length_reverse] at hblen
  have e₁ : ((vals.reverse ++ (bvals.reverse ++ σ₂)).take
      (r.before.length + r.rhs.length)).reverse = bvals ++ vals := by
    rw [← List.append_assoc, List.take_left' (by simp; omega), List.reverse_append,
      List.reverse_reverse, List.reverse_reverse]
  have e₂ : (vals.reverse ++ (bvals.reverse ++ σ₂)).drop r.rhs.length = bvals.reverse ++ σ₂ :=
    List.drop_left' (by simp; omega)
  rw [e₁] at he
  rw [e₂]
  refine ⟨f, w :: (bvals.reverse ++ σ₂), us₀ ++ us₁, vs, rfl, rfl, by rw [hl]; exact hlook, ?_⟩
  rw [hs, hst, List.drop_left' (by simp [← hP]), List.map_cons, List.map_append,
    List.map_reverse, hB]
  refine .cons h₀ ?_
  by_cases hc : r.lhs = .condition
  · obtain ⟨d, rfl, rfl, rfl⟩ := h₁.condition (mem_condRules r hr hc) he
    rw [hc]
    exact .cond d
  · refine .node hr hc rfl hblen (fun ho => ?_) h₁ he
    have := hfirst ho
    rw [hst] at this
    simp only [List.append_eq_nil_iff, List.reverse_eq_nil_iff] at this
    obtain ⟨-, rfl, rfl⟩ := this
    simp [← hB]

end Lr
end Selint
