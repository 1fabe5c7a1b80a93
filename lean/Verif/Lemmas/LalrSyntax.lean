import Verif.Lemmas.LalrComplete
import Verif.Spec.Sentences
/-!
# The tables without the actions

The moves that the tables prescribe, on a stack of states and symbols: whatever the actions of the
productions may do, a file of the grammar leads to the last state.
-/

namespace Selint
namespace Lr
open Spec

/-- The token that comes next. -/
def nextTerm (ts : List Term) : Term := ts.head?.getD .eof

/-- A stack and the tokens that are left. -/
abbrev Place := List (Nat × Sym) × List Term

/-- What the tables say. -/
inductive Turn : Place → Place → Prop
  | shift {stk : List (Nat × Sym)} {x : Term} {ts : List Term} {s : Nat} :
      lalrAction (topState stk) x.code = some (.shift s) →
      Turn (stk, x :: ts) ((s, .t x) :: stk, ts)
  | reduce {stk : List (Nat × Sym)} {ts : List Term} {p s : Nat} {r : Rule} :
      lalrAction (topState stk) (nextTerm ts).code = some (.reduce p) → rules[p]? = some r →
      lalrGoto (topState (stk.drop r.rhs.length)) r.lhs.code = some s →
      Turn (stk, ts) ((s, .n r.lhs) :: stk.drop r.rhs.length, ts)

/-- Any number of moves. -/
inductive Goes : Place → Place → Prop
  | refl {a : Place} : Goes a a
  | head {a b c : Place} : Turn a b → Goes b c → Goes a c

theorem Goes.trans {a b c : Place} (h : Goes a b) (h' : Goes b c) : Goes a c := by
  induction h with
  | refl => exact h'
  | head hm _ ih => exact .head hm (ih h')

theorem Goes.one {a b : Place} (h : Turn a b) : Goes a b := .head h .refl

theorem Turn.same {a b c : Place} (h : Turn a b) (h' : Turn a c) : b = c := by
  cases h with
  | shift ha =>
    cases h' with
    | shift ha' =>
      rw [ha] at ha'
      cases ha'
      rfl
    | reduce ha' =>
      simp only [nextTerm, List.head?_cons, Option.getD_some, ha] at ha'
      cases ha'
  | reduce ha hr hg =>
    cases h' with
    | shift ha' =>
      simp only [nextTerm, List.head?_cons, Option.getD_some, ha'] at ha
      cases ha
    | reduce ha' hr' hg' =>
      rw [ha] at ha'
      cases ha'
      rw [hr] at hr'
      cases hr'
      rw [hg] at hg'
      cases hg'
      rfl

theorem Goes.linear {a b c : Place} (h : Goes a b) (h' : Goes a c) : Goes b c ∨ Goes c b := by
  induction h with
  | refl => exact .inl h'
  | head hm hr ih =>
    cases h' with
    | refl => exact .inr (.head hm hr)
    | head hm' hr' =>
      have := hm.same hm'
      subst this
      exact ih hr'

/-- Only the next token matters. -/
theorem Goes.swap {a b : Place} (h : Goes a b) : ∃ us, a.2 = us ++ b.2 ∧
    ∀ more, more.head? = b.2.head? → Goes (a.1, us ++ more) (b.1, more) := by
  induction h with
  | refl => exact ⟨[], rfl, fun more _ => .refl⟩
  | head hm _ ih =>
    obtain ⟨us, he, ih⟩ := ih
    cases hm with
    | @shift stk x ts s ha =>
      have he : ts = us ++ _ := he
      exact ⟨x :: us, by rw [he]; rfl, fun more hmore => .head (.shift ha) (ih more hmore)⟩
    | @reduce stk ts p s r ha hr hg =>
      have he : ts = us ++ _ := he
      refine ⟨us, he, fun more hmore => .head (.reduce ?_ hr hg) (ih more hmore)⟩
      have : nextTerm (us ++ more) = nextTerm ts := by
        rw [he]
        cases us with
        | nil => simp [nextTerm, hmore]
        | cons => rfl
      rw [this]
      exact ha

theorem Goes.reduce {ps stk : List (Nat × Sym)} {ts : List Term} {p s : Nat} {r : Rule}
    (ha : lalrAction (topState (ps ++ stk)) (nextTerm ts).code = some (.reduce p))
    (hr : rules[p]? = some r) (hl : ps.length = r.rhs.length)
    (hg : lalrGoto (topState stk) r.lhs.code = some s) :
    Goes (ps ++ stk, ts) ((s, .n r.lhs) :: stk, ts) := by
  have hd : (ps ++ stk).drop r.rhs.length = stk := List.drop_left' hl
  have := Turn.reduce (s := s) ha hr (by rw [hd]; exact hg)
  rw [hd] at this
  exact .one this

/-! ## Conditions -/

/-- The tokens of an operand. -/
def Operand.terms (o : Operand) : List Term := o.toks.map fun t => (term t).1

/-- The tokens of a condition. -/
def Flat.terms (c : Flat) : List Term := c.toks.map fun t => (term t).1

/-- What a sequence of symbols stands for, with its conditions. -/
inductive Pieces : List Sym → List Term → Prop
  | nil : Pieces [] []
  | token {x : Term} {xs : List Sym} {ws : List Term} : Pieces xs ws → Pieces (.t x :: xs) (x :: ws)
  | nt {x : Nt} {xs : List Sym} {us ws : List Term} : (x = .condition → ∃ c : Flat, us = c.terms) →
      Pieces xs ws → Pieces (.n x :: xs) (us ++ ws)

theorem Pieces.binary {us : List Term} (o : CondOp)
    (h : Pieces [.n .condition, .t (.p o.punct), .n .condition] us) :
    ∃ c : Flat, us = c.terms := by
  cases h with
  | nt h₁ h =>
  cases h with
  | token h =>
  cases h with
  | nt h₂ h =>
  cases h
  obtain ⟨c, rfl⟩ := h₁ rfl
  obtain ⟨d, rfl⟩ := h₂ rfl
  exact ⟨c.join o d, by simp [Flat.terms, Flat.join_toks, term]⟩

theorem _root_.Selint.Spec.Yields.pieces {xs : List Sym} {ws : List Term} (h : Yields xs ws) : Pieces xs ws := by
  induction h with
  | nil => exact .nil
  | token _ ih => exact .token ih
  | @production r xs us ws hr _ _ ih₁ ih₂ =>
    refine .nt (fun hc => ?_) ih₂
    have hm := mem_condRules r hr hc
    simp only [condRules, List.mem_cons, List.not_mem_nil, or_false] at hm
    rcases hm with rfl | rfl | rfl | rfl | rfl | rfl | rfl | rfl
    · cases ih₁ with
      | token h => cases h; exact ⟨.one (.str []), rfl⟩
    · cases ih₁ with
      | token h =>
      cases h with
      | nt h₁ h =>
      cases h
      obtain ⟨c, rfl⟩ := h₁ rfl
      exact ⟨c.neg, by simp [Flat.terms, Flat.neg_toks, term]⟩
    · exact ih₁.binary .and
    · exact ih₁.binary .or
    · exact ih₁.binary .xor
    · exact ih₁.binary .equal
    · exact ih₁.binary .notEqual
    · cases ih₁ with
      | token h =>
      cases h with
      | nt h₁ h =>
      cases h with
      | token h =>
      cases h
      obtain ⟨c, rfl⟩ := h₁ rfl
      exact ⟨.one (.paren c), by simp [Flat.terms, Flat.toks, Operand.toks, term]⟩

variable {stk : List (Nat × Sym)} {ts : List Term}

/-- What is pending is put together. -/
theorem Goes.pop (h : topState stk ∈ condBases) (f : Pending) (fs : List Pending)
    (ha : lalrAction (condGoto f.state) (nextTerm ts).code = some (.reduce f.rule)) :
    Goes (after stk (f :: fs), ts) (after stk fs, ts) := by
  have hg := (base_of (stackOf_base h fs)).2.2.2
  cases f with
  | not =>
    exact Goes.reduce (ps := [(condGoto 212, .n .condition), (212, .t (.p .not))])
      (stk := stackOf stk fs) ha condRules_at.2.1 rfl hg
  | bin op =>
    exact Goes.reduce (ps := [(condGoto op.state, .n .condition), (op.state, op.sym),
        (condGoto (topState (stackOf stk fs)), .n .condition)])
      (stk := stackOf stk fs) ha (condRules_at.2.2.1 op) rfl hg

/-- At the end of a condition everything is put together. -/
theorem Goes.finish (h : topState stk ∈ condBases)
    (ha : condFollow.testBit (nextTerm ts).code = true) :
    ∀ fs : List Pending, Goes (after stk fs, ts) (after stk [], ts)
  | [] => .refl
  | f :: fs => (Goes.pop h f fs ((pending_of f).2.1 _ ha)).trans (Goes.finish h ha fs)

/-- An operator comes next. -/
theorem Goes.operator (h : topState stk ∈ condBases) (op : CondOp) : ∀ fs : List Pending, ∃ fs',
    Goes (after stk fs, .p op.punct :: ts) (stackOf stk (.bin op :: fs'), ts)
  | [] => ⟨[], .one (.shift ((outer_of h).2 op))⟩
  | f :: fs => by
    rcases (pending_of f).2.2 op with ha | ha
    · refine ⟨f :: fs, .one (.shift ?_)⟩
      show lalrAction (condGoto (topState (stackOf stk (f :: fs)))) op.sym.code = _
      rw [stackOf_state]
      exact ha
    · obtain ⟨fs', h'⟩ := Goes.operator h op fs
      exact ⟨fs', (Goes.pop h f fs (ts := .p op.punct :: ts) ha).trans h'⟩

mutual
/-- An operand is read. -/
theorem Operand.moves : ∀ (o : Operand) {stk : List (Nat × Sym)} {ts : List Term}
    (fs : List Pending), topState stk ∈ condBases →
    condNext.testBit (nextTerm ts).code = true →
    ∃ fs', Goes (stackOf stk fs, o.terms ++ ts) (after stk fs', ts)
  | .str s, stk, ts, fs, hb, hn => by
    have hbase := base_of (stackOf_base hb fs)
    refine ⟨fs, (Goes.one (.shift (x := .string) (s := 211) hbase.1)).trans ?_⟩
    exact Goes.reduce (ps := [(211, .t .string)]) (stk := stackOf stk fs)
      (closed_of hn).1 condRules_at.1 rfl hbase.2.2.2
  | .not o, stk, ts, fs, hb, hn => by
    have hbase := base_of (stackOf_base hb fs)
    obtain ⟨fs', h'⟩ := o.moves (.not :: fs) hb hn
    exact ⟨fs', (Goes.one (.shift (x := .p .not) (s := 212) hbase.2.1)).trans h'⟩
  | .paren c, stk, ts, fs, hb, hn => by
    have hbase := base_of (stackOf_base hb fs)
    have hc := c.moves (stk := (213, .t (.p .openParen)) :: stackOf stk fs)
      (ts := .p .closeParen :: ts) [] (by
        show (213 : Nat) ∈ condBases
        decide) closed_checked.2.2
    have hclose : lalrAction (topState (after ((213, .t (.p .openParen)) :: stackOf stk fs) []))
        (Term.code (.p .closeParen)) = some (.shift 424) := by
      simp only [after, topState, stackOf]
      exact closed_checked.2.1
    refine ⟨fs, ?_⟩
    have := (Goes.one (.shift (stk := stackOf stk fs) (x := .p .openParen) (s := 213)
        (ts := c.terms ++ .p .closeParen :: ts) hbase.2.2.1)).trans (hc.trans
      ((Goes.one (.shift (stk := after ((213, .t (.p .openParen)) :: stackOf stk fs) [])
        (x := .p .closeParen) (s := 424) hclose)).trans
        (Goes.reduce (ps := [(424, .t (.p .closeParen)), (condGoto 213, .n .condition),
            (213, .t (.p .openParen))]) (stk := stackOf stk fs)
          (closed_of hn).2 condRules_at.2.2.2 rfl hbase.2.2.2)))
    simpa [after, Operand.terms, Operand.toks, Flat.terms, term] using this
/-- A condition is read. -/
theorem Flat.moves : ∀ (c : Flat) {stk : List (Nat × Sym)} {ts : List Term}
    (fs : List Pending), topState stk ∈ condBases →
    condFollow.testBit (nextTerm ts).code = true →
    Goes (stackOf stk fs, c.terms ++ ts) (after stk [], ts)
  | .one o, stk, ts, fs, hb, hn => by
    obtain ⟨fs', h'⟩ := o.moves fs hb (condNext_follow hn)
    exact h'.trans (Goes.finish hb hn fs')
  | .more o op c, stk, ts, fs, hb, hn => by
    obtain ⟨fs₁, r₁⟩ := o.moves fs hb (ts := .p op.punct :: (c.terms ++ ts)) (condNext_op op)
    obtain ⟨fs₂, r₂⟩ := Goes.operator (ts := c.terms ++ ts) hb op fs₁
    have r₃ := c.moves (.bin op :: fs₂) hb hn
    have := r₁.trans (r₂.trans r₃)
    simpa [Flat.terms, Flat.toks, Operand.terms, term] using this
end

/-! ## What the symbols of a production begin with -/

theorem _root_.Selint.Spec.Yields.first {xs : List Sym} {ws : List Term} (h : Yields xs ws) :
    (ws = [] → nullSeq (xs.map Sym.code) = true) ∧ ∀ x ws', ws = x :: ws' →
      (firstSeq (xs.map Sym.code) 0).testBit x.code = true := by
  induction h with
  | nil => exact ⟨fun _ => rfl, nofun⟩
  | @token x xs ws _ _ =>
    refine ⟨nofun, fun y ws' he => ?_⟩
    cases he
    simp only [List.map_cons, Sym.code, firstSeq]
    rw [if_pos (by exact Term.code_lt _)]
    simp
  | @production r xs us ws hr _ _ ih₁ ih₂ =>
    obtain ⟨i, hi⟩ := List.mem_iff_getElem?.1 hr
    obtain ⟨x, b, m, hf, hm, hb⟩ := first_of hi
    have hx : ¬ (Sym.code (.n r.lhs)) < 100 := Nat.not_lt.2 r.lhs.code_ge
    have hnull : us = [] → nullSeq [Sym.code (.n r.lhs)] = true := by
      intro h
      have := hb (ih₁.1 h)
      subst this
      have hf' : lalrFirst.find? (·.1 == Sym.code (.n r.lhs)) = some (x, true, m) := hf
      simp [nullSeq, hx, hf']
    rw [List.map_cons]
    refine ⟨fun he => ?_, fun t us' he => ?_⟩
    · rw [List.append_eq_nil_iff] at he
      rw [nullSeq_cons, hnull he.1, ih₂.1 he.2]
      rfl
    · cases us with
      | nil => exact firstSeq_skip (hnull rfl) (ih₂.2 t us' he)
      | cons y ys =>
        simp only [List.cons_append, List.cons.injEq] at he
        obtain ⟨rfl, -⟩ := he
        have := bitsIn_testBit hm (ih₁.2 y ys rfl)
        have hf' : lalrFirst.find? (·.1 == Sym.code (.n r.lhs)) = some (x, b, m) := hf
        refine firstSeq_cons ?_
        simp only [firstSeq, if_neg hx, hf']
        cases b with
        | true => simpa using this
        | false => exact this

theorem _root_.Selint.Spec.Yields.next {xs : List Sym} {ws ts : List Term} {l : Nat} (h : Yields xs ws)
    (hl : l.testBit (nextTerm ts).code = true) :
    (firstSeq (xs.map Sym.code) l).testBit (nextTerm (ws ++ ts)).code = true := by
  obtain ⟨h₁, h₂⟩ := h.first
  cases ws with
  | nil => exact firstSeq_null hl (h₁ rfl)
  | cons x ws => exact firstSeq_zero (h₂ x ws rfl)

/-! ## The tables lead through every file -/

theorem _root_.Selint.Spec.Yields.runs {xs : List Sym} {ws : List Term} (h : Yields xs ws) :
    ∀ {p d l : Nat} {r : Rule} {stk : List (Nat × Sym)} {ts : List Term},
    rules[p]? = some r → r.lhs ≠ .condition → r.rhs.drop d = xs →
    (p, d, l) ∈ itemsAt (topState stk) → l.testBit (nextTerm ts).code = true →
    ∃ ps : List (Nat × Sym), ps.length = xs.length ∧ Goes (stk, ws ++ ts) (ps ++ stk, ts) ∧
      ∃ l', (p, d + xs.length, l') ∈ itemsAt (topState (ps ++ stk)) ∧ bitsIn l l' = true := by
  have tail : ∀ {l l' l'' : Nat}, bitsIn l l' = true → bitsIn l' l'' = true → bitsIn l l'' = true := by
    intro l l' l'' hb hb'
    have e₁ := beq_iff_eq.1 hb
    have e₂ := beq_iff_eq.1 hb'
    rw [bitsIn, beq_iff_eq, ← e₁, Nat.and_assoc, e₂]
  induction h with
  | nil =>
    intro p d l r stk ts hr hc hd hi hl
    exact ⟨[], rfl, .refl, l, hi, by simp [bitsIn]⟩
  | @token x xs ws h ih =>
    intro p d l r stk ts hr hc hd hi hl
    obtain ⟨s', l', ha, hm, hb⟩ := item_shift hi hr hc hd
    have hd' : r.rhs.drop (d + 1) = xs := by
      rw [← List.drop_drop, hd]
      rfl
    obtain ⟨ps, hps, hrun, l'', hm', hb'⟩ := ih (stk := (s', .t x) :: stk) hr hc hd' hm
      (bitsIn_testBit hb hl)
    refine ⟨ps ++ [(s', .t x)], by simp [hps], ?_, l'', ?_, tail hb hb'⟩
    · have := (Goes.one (.shift (ts := ws ++ ts) ha)).trans hrun
      simpa using this
    · rw [List.append_assoc]
      have e : d + (Sym.t x :: xs).length = d + 1 + xs.length := by simp; omega
      rw [e]
      exact hm'
  | @production r' xs us ws hr' hy hys ih₁ ih₂ =>
    intro p d l r stk ts hr hc hd hi hl
    obtain ⟨s', l', hg, hm, hb, hcond, hprods⟩ := item_goto hi hr hc hd
    have hd' : r.rhs.drop (d + 1) = xs := by
      rw [← List.drop_drop, hd]
      rfl
    have hnext := hys.next hl
    have key : Goes (stk, us ++ (ws ++ ts)) ((s', .n r'.lhs) :: stk, ws ++ ts) := by
      by_cases hx : r'.lhs = .condition
      · obtain ⟨hbase, hf⟩ := hcond hx
        have hone : Yields [.n r'.lhs] (us ++ []) := .production hr' hy .nil
        have hp := hone.pieces
        rw [hx, List.append_nil] at hp
        have : ∃ c : Flat, us = c.terms := by
          generalize hxs : [Sym.n .condition] = zs at hp
          cases hp with
          | nil => cases hxs
          | token => cases hxs
          | nt h₁ h =>
            cases hxs
            cases h
            obtain ⟨c, rfl⟩ := h₁ rfl
            exact ⟨c, by simp⟩
        obtain ⟨c, rfl⟩ := this
        have hrun := c.moves (stk := stk) (ts := ws ++ ts) [] hbase (bitsIn_testBit hf hnext)
        have hs' : s' = condGoto (topState stk) := by
          have h' : lalrGoto (topState stk) condCode = some s' := by
            rw [hx] at hg
            exact hg
          rw [(base_of (outer_of hbase).1).2.2.2] at h'
          exact (Option.some.inj h').symm
        rw [hs', hx]
        exact hrun
      · obtain ⟨q, hq⟩ := List.mem_iff_getElem?.1 hr'
        obtain ⟨l₁, hl₁, hb₁⟩ := hprods hx q r' hq rfl
        have hbit := bitsIn_testBit hb₁ hnext
        obtain ⟨ps, hps, hrun, l₂, hl₂, hb₂⟩ := ih₁ hq hx (d := 0) rfl hl₁ hbit
        refine hrun.trans (Goes.reduce ?_ hq hps hg)
        refine item_reduce hl₂ hq hx ?_ (bitsIn_testBit hb₂ hbit)
        rw [Nat.zero_add, List.drop_length]
    obtain ⟨ps, hps, hrun, l'', hm', hb'⟩ := ih₂ (stk := (s', .n r'.lhs) :: stk) hr hc hd' hm
      (bitsIn_testBit hb hl)
    refine ⟨ps ++ [(s', .n r'.lhs)], by simp [hps], ?_, l'', ?_, tail hb hb'⟩
    · have := key.trans hrun
      simpa using this
    · rw [List.append_assoc]
      have e : d + (Sym.n r'.lhs :: xs).length = d + 1 + xs.length := by simp; omega
      rw [e]
      exact hm'

/-- Every file of the grammar leads to the last state. -/
theorem _root_.Selint.Spec.Sentence.runs {ws : List Term} (h : Sentence ws) :
    Goes ([], ws) ([(lalrFinal, .n .selinuxFile)], []) := by
  unfold Sentence at h
  generalize hxs : [Sym.n .selinuxFile] = xs at h
  cases h with
  | nil => cases hxs
  | token => cases hxs
  | @production r _ us ws' hr hy hys =>
    simp only [List.cons.injEq, Sym.n.injEq] at hxs
    obtain ⟨hlhs, rfl⟩ := hxs
    cases hys
    obtain ⟨q, hq⟩ := List.mem_iff_getElem?.1 hr
    have hm := List.all_eq_true.1 start_checked.1 q (by rw [hlhs]; exact mem_prodsOf hq)
    obtain ⟨l, hl, hb⟩ := hasItem_iff.1 hm
    have hbit : l.testBit (nextTerm []).code = true := bitsIn_testBit hb (by decide +kernel)
    have hc : r.lhs ≠ .condition := by rw [← hlhs]; decide
    obtain ⟨ps, hps, hrun, l₂, hl₂, hb₂⟩ := hy.runs (stk := []) (ts := []) hq hc (d := 0) rfl hl hbit
    have := hrun.trans (Goes.reduce (s := lalrFinal) (item_reduce hl₂ hq hc (by
      rw [Nat.zero_add, List.drop_length]) (bitsIn_testBit hb₂ hbit)) hq hps (by
        rw [← hlhs]
        exact start_checked.2))
    rw [← hlhs] at this
    exact this

/-- Where the tables have nothing to do, no file goes on with the next token. -/
theorem Goes.stuck {us more more' : List Term} {stk : List (Nat × Sym)}
    (h : Goes ([], us ++ more) (stk, more))
    (hs : lalrAction (topState stk) (nextTerm more).code = none)
    (hh : more'.head? = more.head?) : ¬ Sentence (us ++ more') := by
  intro hsent
  obtain ⟨us', he, hsw⟩ := h.swap
  have he : us ++ more = us' ++ more := he
  obtain rfl := List.append_cancel_right he
  have hr := hsw more' hh
  have hn : nextTerm more' = nextTerm more := by simp only [nextTerm, hh]
  have hfin : ∀ {a b : Place}, Goes a b → (∀ c, ¬ Turn a c) → b = a := by
    intro a b h hno
    cases h with
    | refl => rfl
    | head hm _ => exact absurd hm (hno _)
  have haccept : lalrAction (topState [(lalrFinal, Sym.n .selinuxFile)]) (nextTerm []).code =
      some .accept := by decide +kernel
  have hend : ∀ c, ¬ Turn ([(lalrFinal, .n .selinuxFile)], []) c := by
    intro c hm
    cases hm with
    | reduce ha => rw [haccept] at ha; cases ha
  have hstuck : ∀ c, ¬ Turn (stk, more') c := by
    intro c hm
    rw [← hn] at hs
    cases hm with
    | shift ha =>
      simp only [nextTerm, List.head?_cons, Option.getD_some, ha] at hs
      cases hs
    | reduce ha => rw [ha] at hs; cases hs
  have heq : (stk, more') = ([(lalrFinal, Sym.n .selinuxFile)], []) := by
    rcases hr.linear hsent.runs with h' | h'
    · exact (hfin h' hstuck).symm
    · exact hfin h' hend
  cases heq
  rw [← hn, haccept] at hs
  cases hs

end Lr
end Selint
