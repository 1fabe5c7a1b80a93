import Verif.Lemmas.LalrRuns
/-!
# Conditions

Conditions are ambiguous, and parse.y:171-176 says how they are grouped. Whatever that is, the
parser reads the whole condition: after an operand it either goes on with the next operator or
puts together what it has.
-/

namespace Selint
namespace Lr

/-- What the parser is in the middle of: after `!`, or after an operand and an operator. -/
inductive Pending where
  | not
  | bin (op : CondOp)

/-- The state after an operator. -/
def CondOp.state : CondOp → Nat
  | .and => 318
  | .or => 319
  | .xor => 320
  | .equal => 321
  | .notEqual => 322

/-- The state after `!` or an operator. -/
def Pending.state : Pending → Nat
  | .not => 212
  | .bin op => op.state

/-- The place of the production among `rules`. -/
def Pending.rule : Pending → Nat
  | .not => 168
  | .bin .and => 169
  | .bin .or => 170
  | .bin .xor => 171
  | .bin .equal => 172
  | .bin .notEqual => 173

/-- The token of an operator. -/
def CondOp.sym (op : CondOp) : Sym := .t (.p op.punct)

/-- The state after a condition. -/
def condGoto (s : Nat) : Nat := (lalrGoto s condCode).getD 0

/-- The tokens that may follow an operand. -/
def condNext : Nat :=
  condFollow ||| 1 <<< CondOp.and.sym.code ||| 1 <<< CondOp.or.sym.code |||
    1 <<< CondOp.xor.sym.code ||| 1 <<< CondOp.equal.sym.code ||| 1 <<< CondOp.notEqual.sym.code

/-- The states in which an operand may begin. -/
def operandBases : List Nat := [118, 212, 213, 317, 318, 319, 320, 321, 322, 416]

theorem bases_checked : operandBases.all (fun s =>
    lalrAction s (Sym.code (.t .string)) == some (.shift 211) &&
    lalrAction s (Sym.code (.t (.p .not))) == some (.shift 212) &&
    lalrAction s (Sym.code (.t (.p .openParen))) == some (.shift 213) &&
    lalrGoto s condCode == some (condGoto s)) = true := by decide +kernel

theorem outer_checked : condBases.all (fun s => operandBases.contains s &&
    [CondOp.and, .or, .xor, .equal, .notEqual].all fun op =>
      lalrAction (condGoto s) op.sym.code == some (.shift op.state)) = true := by decide +kernel

theorem pending_checked : [Pending.not, .bin .and, .bin .or, .bin .xor, .bin .equal,
    .bin .notEqual].all (fun f => operandBases.contains f.state &&
    ((List.range 100).all fun a => !condFollow.testBit a ||
      lalrAction (condGoto f.state) a == some (.reduce f.rule)) &&
    [CondOp.and, .or, .xor, .equal, .notEqual].all fun op =>
      lalrAction (condGoto f.state) op.sym.code == some (.shift op.state) ||
      lalrAction (condGoto f.state) op.sym.code == some (.reduce f.rule)) = true := by decide +kernel

theorem closed_checked : ((List.range 100).all fun a => !condNext.testBit a ||
    lalrAction 211 a == some (.reduce 167) && lalrAction 424 a == some (.reduce 174)) = true ∧
    lalrAction (condGoto 213) (Sym.code (.t (.p .closeParen))) = some (.shift 424) ∧
    condFollow.testBit (Sym.code (.t (.p .closeParen))) = true := by
  decide +kernel

theorem condRules_at : rules[167]? = some ⟨.condition, [str], [.free 1], [], false⟩ ∧
    rules[Pending.not.rule]? = some ⟨.condition, [P .not, .n .condition], [], [], false⟩ ∧
    (∀ op : CondOp, rules[(Pending.bin op).rule]? =
      some ⟨.condition, [.n .condition, op.sym, .n .condition], [], [], false⟩) ∧
    rules[174]? = some ⟨.condition, [Lr.op, .n .condition, cl], [], [], false⟩ := by
  refine ⟨by decide +kernel, by decide +kernel, fun op => ?_, by decide +kernel⟩
  cases op <;> decide +kernel

theorem base_of {s : Nat} (h : s ∈ operandBases) :
    lalrAction s (Sym.code (.t .string)) = some (.shift 211) ∧
    lalrAction s (Sym.code (.t (.p .not))) = some (.shift 212) ∧
    lalrAction s (Sym.code (.t (.p .openParen))) = some (.shift 213) ∧
    lalrGoto s condCode = some (condGoto s) := by
  have := List.all_eq_true.1 bases_checked s h
  simpa [and_assoc] using this

theorem outer_of {s : Nat} (h : s ∈ condBases) : s ∈ operandBases ∧ ∀ op : CondOp,
    lalrAction (condGoto s) op.sym.code = some (.shift op.state) := by
  have := List.all_eq_true.1 outer_checked s h
  simp only [Bool.and_eq_true, List.all_cons, List.all_nil, beq_iff_eq, List.contains_iff_mem] at this
  obtain ⟨h₁, h₂, h₃, h₄, h₅, h₆, -⟩ := this
  exact ⟨h₁, fun op => by cases op <;> assumption⟩

theorem pending_of (f : Pending) : f.state ∈ operandBases ∧
    (∀ a, condFollow.testBit a = true → lalrAction (condGoto f.state) a = some (.reduce f.rule)) ∧
    ∀ op : CondOp, lalrAction (condGoto f.state) op.sym.code = some (.shift op.state) ∨
      lalrAction (condGoto f.state) op.sym.code = some (.reduce f.rule) := by
  have := List.all_eq_true.1 pending_checked f (by
    cases f with
    | not => simp
    | bin op => cases op <;> simp)
  simp only [Bool.and_eq_true] at this
  obtain ⟨⟨h₁, h₂⟩, h₃⟩ := this
  refine ⟨by simpa using h₁, fun a ha => ?_, fun op => ?_⟩
  · have hlt : a < 100 := by
      refine Classical.byContradiction fun hn => ?_
      rw [Nat.testBit_lt_two_pow (Nat.lt_of_lt_of_le (by decide +kernel : condFollow < 2 ^ 100)
        (Nat.pow_le_pow_right (by omega) (by omega)))] at ha
      cases ha
    have := List.all_eq_true.1 h₂ a (List.mem_range.2 hlt)
    rw [ha] at this
    simpa using this
  · have := List.all_eq_true.1 h₃ op (by cases op <;> simp)
    simpa using this

theorem closed_of {a : Nat} (ha : condNext.testBit a = true) :
    lalrAction 211 a = some (.reduce 167) ∧ lalrAction 424 a = some (.reduce 174) := by
  have hlt : a < 100 := by
    refine Classical.byContradiction fun hn => ?_
    rw [Nat.testBit_lt_two_pow (Nat.lt_of_lt_of_le (by decide +kernel : condNext < 2 ^ 100)
      (Nat.pow_le_pow_right (by omega) (by omega)))] at ha
    cases ha
  have := List.all_eq_true.1 closed_checked.1 a (List.mem_range.2 hlt)
  rw [ha] at this
  simpa using this

/-- The stack in the middle of a condition that begins on top of `stk`. -/
def stackOf (stk : List (Nat × Sym)) : List Pending → List (Nat × Sym)
  | [] => stk
  | .not :: fs => (212, .t (.p .not)) :: stackOf stk fs
  | .bin op :: fs => (op.state, op.sym) ::
      (condGoto (topState (stackOf stk fs)), .n .condition) :: stackOf stk fs

/-- The values in the middle of a condition. -/
def valuesOf (σ : List FVal) : List Pending → List FVal
  | [] => σ
  | .not :: fs => .none :: valuesOf σ fs
  | .bin _ :: fs => .none :: .none :: valuesOf σ fs

/-- The stack after an operand. -/
def after (stk : List (Nat × Sym)) (fs : List Pending) : List (Nat × Sym) :=
  (condGoto (topState (stackOf stk fs)), .n .condition) :: stackOf stk fs

variable {m₀ : Mem} {expected : PlainFlavor} {mod : Str} {maps : Maps} {stk : List (Nat × Sym)}
  {σ : List FVal} {st : PState} {ts : Located}

theorem stackOf_base (h : topState stk ∈ condBases) : ∀ fs : List Pending,
    topState (stackOf stk fs) ∈ operandBases
  | [] => (outer_of h).1
  | .not :: _ => (pending_of .not).1
  | .bin op :: _ => (pending_of (.bin op)).1

theorem stackOf_state (f : Pending) (fs : List Pending) :
    topState (stackOf stk (f :: fs)) = f.state := by
  cases f <;> rfl

/-- What is pending is put together. -/
theorem Can.pop (h : topState stk ∈ condBases) (f : Pending) (fs : List Pending)
    (ha : lalrAction (condGoto f.state) (nextSym ts).code = some (.reduce f.rule)) :
    Can m₀ expected mod maps (after stk (f :: fs)) (.none :: valuesOf σ (f :: fs)) st ts
      (after stk fs) (.none :: valuesOf σ fs) st ts := by
  have hg := (base_of (stackOf_base h fs)).2.2.2
  cases f with
  | not =>
    exact Can.reduce (ps := [(condGoto 212, .n .condition), (212, .t (.p .not))])
      (stk := stackOf stk fs) (σ := valuesOf σ fs) (vals := [.none, .none]) (bvals := [])
      (ss := (stackOf stk fs).map (·.2)) (line := 0) ha condRules_at.2.1 rfl rfl nofun rfl rfl hg rfl
  | bin op =>
    exact Can.reduce (ps := [(condGoto op.state, .n .condition), (op.state, op.sym),
        (condGoto (topState (stackOf stk fs)), .n .condition)])
      (stk := stackOf stk fs) (σ := valuesOf σ fs) (vals := [.none, .none, .none]) (bvals := [])
      (ss := (stackOf stk fs).map (·.2)) (line := 0) ha (condRules_at.2.2.1 op) rfl rfl nofun rfl rfl
      hg rfl

/-- At the end of a condition everything is put together. -/
theorem Can.finish (h : topState stk ∈ condBases) (ha : condFollow.testBit (nextSym ts).code = true) :
    ∀ fs : List Pending,
    Can m₀ expected mod maps (after stk fs) (.none :: valuesOf σ fs) st ts
      (after stk []) (.none :: σ) st ts
  | [] => .refl
  | f :: fs => (Can.pop h f fs ((pending_of f).2.1 _ ha)).trans (Can.finish h ha fs)

/-- An operator comes next. -/
theorem Can.operator (h : topState stk ∈ condBases) (op : CondOp) {line : Nat} :
    ∀ fs : List Pending, ∃ fs',
    Can m₀ expected mod maps (after stk fs) (.none :: valuesOf σ fs) st
      ((line, .p op.punct) :: ts) (stackOf stk (.bin op :: fs')) (valuesOf σ (.bin op :: fs')) st ts
  | [] => ⟨[], Can.shift (t := .p op.punct) ((outer_of h).2 op)⟩
  | f :: fs => by
    rcases (pending_of f).2.2 op with ha | ha
    · refine ⟨f :: fs, Can.shift (t := .p op.punct) ?_⟩
      show lalrAction (condGoto (topState (stackOf stk (f :: fs)))) op.sym.code = _
      rw [stackOf_state]
      exact ha
    · obtain ⟨fs', h'⟩ := Can.operator h op (line := line) fs
      exact ⟨fs', (Can.pop h f fs (ts := (line, .p op.punct) :: ts) ha).trans h'⟩

theorem condNext_op (op : CondOp) : condNext.testBit op.sym.code = true := by
  cases op <;> decide +kernel

theorem condNext_follow {a : Nat} (h : condFollow.testBit a = true) : condNext.testBit a = true := by
  simp only [condNext, Nat.testBit_or, h, Bool.true_or]

mutual
/-- An operand is read. -/
theorem Operand.runs : ∀ (o : Operand) {stk : List (Nat × Sym)} {σ : List FVal} {ts ts' : Located}
    (fs : List Pending), topState stk ∈ condBases → ts'.map (·.2) = o.toks →
    condNext.testBit (nextSym ts).code = true →
    ∃ fs', Can m₀ expected mod maps (stackOf stk fs) (valuesOf σ fs) st (ts' ++ ts)
      (after stk fs') (.none :: valuesOf σ fs') st ts
  | .str s, stk, σ, ts, ts', fs, hb, ht, hn => by
    have hbase := base_of (stackOf_base hb fs)
    simp only [Operand.toks, List.map_eq_cons_iff, List.map_eq_nil_iff] at ht
    obtain ⟨⟨line, t⟩, _, rfl, rfl, rfl⟩ := ht
    refine ⟨fs, (Can.shift (t := .string s) (s := 211) hbase.1).trans ?_⟩
    exact Can.reduce (ps := [(211, .t .string)]) (stk := stackOf stk fs) (σ := valuesOf σ fs)
      (vals := [.word s]) (bvals := []) (ss := (stackOf stk fs).map (·.2)) (line := 0)
      (closed_of hn).1 condRules_at.1 rfl rfl nofun rfl rfl hbase.2.2.2 rfl
  | .not o, stk, σ, ts, ts', fs, hb, ht, hn => by
    have hbase := base_of (stackOf_base hb fs)
    simp only [Operand.toks, List.map_eq_cons_iff] at ht
    obtain ⟨⟨line, t⟩, ts₁, rfl, rfl, ht⟩ := ht
    obtain ⟨fs', h'⟩ := o.runs (.not :: fs) hb ht hn (σ := σ)
    exact ⟨fs', (Can.shift (t := .p .not) (s := 212) hbase.2.1).trans h'⟩
  | .paren c, stk, σ, ts, ts', fs, hb, ht, hn => by
    have hbase := base_of (stackOf_base hb fs)
    simp only [Operand.toks, List.map_eq_cons_iff, List.map_eq_append_iff, List.map_eq_nil_iff] at ht
    obtain ⟨⟨line, t⟩, _, rfl, rfl, ts₁, _, rfl, ht, ⟨line', t'⟩, _, rfl, rfl, rfl⟩ := ht
    have hc := c.runs (stk := (213, .t (.p .openParen)) :: stackOf stk fs)
      (σ := .none :: valuesOf σ fs) (ts := (line', .p .closeParen) :: ts) [] (by
        show (213 : Nat) ∈ condBases
        decide) ht closed_checked.2.2
    have hclose : lalrAction (topState (after ((213, .t (.p .openParen)) :: stackOf stk fs) []))
        (tokenSym (some (.p .closeParen))).code = some (.shift 424) := by
      simp only [after, topState, stackOf]
      exact closed_checked.2.1
    refine ⟨fs, ?_⟩
    have := (Can.shift (m₀ := m₀) (expected := expected) (mod := mod) (maps := maps) (st := st)
      (line := line) (σ := valuesOf σ fs) (ts := ts₁ ++ (line', .p .closeParen) :: ts)
      (t := .p .openParen) (s := 213) hbase.2.2.1).trans (hc.trans
      ((Can.shift (stk := after ((213, .t (.p .openParen)) :: stackOf stk fs) [])
        (t := .p .closeParen) (s := 424) hclose).trans
        (Can.reduce (ps := [(424, .t (.p .closeParen)), (condGoto 213, .n .condition),
            (213, .t (.p .openParen))]) (stk := stackOf stk fs) (σ := valuesOf σ fs)
          (vals := [.none, .none, .none]) (bvals := []) (ss := (stackOf stk fs).map (·.2)) (line := 0)
          (closed_of hn).2 condRules_at.2.2.2 rfl rfl nofun rfl rfl hbase.2.2.2 rfl)))
    simpa [after] using this
/-- A condition is read. -/
theorem Flat.runs : ∀ (c : Flat) {stk : List (Nat × Sym)} {σ : List FVal} {ts ts' : Located}
    (fs : List Pending), topState stk ∈ condBases → ts'.map (·.2) = c.toks →
    condFollow.testBit (nextSym ts).code = true →
    Can m₀ expected mod maps (stackOf stk fs) (valuesOf σ fs) st (ts' ++ ts)
      (after stk []) (.none :: σ) st ts
  | .one o, stk, σ, ts, ts', fs, hb, ht, hn => by
    obtain ⟨fs', h'⟩ := o.runs fs hb ht (condNext_follow hn) (σ := σ)
    exact h'.trans (Can.finish hb hn fs')
  | .more o op c, stk, σ, ts, ts', fs, hb, ht, hn => by
    simp only [Flat.toks, List.map_eq_cons_iff, List.map_eq_append_iff] at ht
    obtain ⟨ts₁, _, rfl, h₁, ⟨line, t⟩, ts₂, rfl, rfl, h₂⟩ := ht
    obtain ⟨fs₁, r₁⟩ := o.runs fs hb h₁ (ts := (line, .p op.punct) :: (ts₂ ++ ts)) (σ := σ)
      (condNext_op op)
    obtain ⟨fs₂, r₂⟩ := Can.operator (m₀ := m₀) (expected := expected) (mod := mod) (maps := maps)
      (st := st) (ts := ts₂ ++ ts) (line := line) (σ := σ) hb op fs₁
    have r₃ := c.runs (.bin op :: fs₂) hb h₂ hn (σ := σ)
    have := r₁.trans (r₂.trans r₃)
    simpa using this
end

end Lr
end Selint
