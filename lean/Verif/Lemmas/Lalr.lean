import Verif.Lemmas.LalrItems
/-!
# The tables of the parser follow the grammar

For every state and every item in it: where the item is at its end the tables reduce, where a
token comes next they shift it, and where a nonterminal comes next the items of its productions
are in the same state; the item one further is in the state that follows. Checked by evaluation in
the kernel. Conditions are ambiguous and are treated in `LalrConditions.lean`.
-/

namespace Selint
namespace Lr

/-- The items of a state. -/
def itemsAt (s : Nat) : List (Nat × Nat × Nat) := ((lalrItems[s / 25]?).bind (·[s % 25]?)).getD []

/-- A production. -/
def codedRule (p : Nat) : Option (Nat × List Nat) := (codedRules[p / 20]?).bind (·[p % 20]?)

/-- The productions of a nonterminal. -/
def prodsOf (x : Nat) : List Nat := ((lalrProds.find? (·.1 == x)).map (·.2)).getD []

/-- All bits of the first set are in the second. -/
def bitsIn (l m : Nat) : Bool := (l &&& m) == l

/-- The tokens that a sequence of symbols may begin with, when those of `l` follow it. -/
def firstSeq : List Nat → Nat → Nat
  | [], l => l
  | x :: xs, l =>
    if x < 100 then 1 <<< x
    else match lalrFirst.find? (·.1 == x) with
      | none => 0
      | some (_, true, m) => m ||| firstSeq xs l
      | some (_, false, m) => m

/-- The number of `condition`. -/
def condCode : Nat := Nt.code .condition

/-- The tokens that may follow a condition: `)`, `,` and `'`. -/
def condFollow : Nat :=
  1 <<< Term.code (.p .closeParen) ||| 1 <<< Term.code (.p .comma) ||| 1 <<< Term.code (.p .singleQuote)

/-- The states in which a condition may begin that is not an operand. -/
def condBases : List Nat := [118, 213, 317, 416]

/-- An item in a state, with at least these tokens. -/
def hasItem (s p d l : Nat) : Bool :=
  (itemsAt s).any fun i => i.1 == p && i.2.1 == d && bitsIn l i.2.2

/-- What is checked of an item. -/
def checkItem (s p d l : Nat) : Bool :=
  match codedRule p with
  | none => false
  | some (lhs, rhs) =>
    lhs == condCode ||
    match rhs.drop d with
    | [] =>
      s != lalrFinal && match lalrRow s with
        | none => false
        | some row =>
          row.shifts.all (fun x => !l.testBit x.1) &&
          match row.reductions.find? (fun x => (x.1 &&& l) != 0) with
          | none => l == 0
          | some (m, q) => q == p && bitsIn l m
    | x :: rest =>
      if x < 100 then
        match lalrAction s x with
        | some (.shift s') => hasItem s' p (d + 1) l
        | _ => false
      else
        match lalrGoto s x with
        | none => false
        | some s' =>
          hasItem s' p (d + 1) l &&
          if x == condCode then condBases.contains s && bitsIn (firstSeq rest l) condFollow
          else (prodsOf x).all fun q => hasItem s q 0 (firstSeq rest l)

/-- What is checked of a state. -/
def checkState (s : Nat) : Bool := (itemsAt s).all fun i => checkItem s i.1 i.2.1 i.2.2

theorem states_checked : (List.range 600).all checkState = true := by decide +kernel

theorem lalrItems_length : lalrItems.length = 24 := by decide +kernel

theorem item_checked {s p d l : Nat} (h : (p, d, l) ∈ itemsAt s) : checkItem s p d l = true := by
  have hs : s < 600 := by
    refine Classical.byContradiction fun hn => ?_
    have : lalrItems[s / 25]? = none := by
      rw [List.getElem?_eq_none_iff, lalrItems_length]
      omega
    simp [itemsAt, this] at h
  have := List.all_eq_true.1 states_checked s (List.mem_range.2 hs)
  exact List.all_eq_true.1 this (p, d, l) h

theorem rules_length : rules.length = 283 := by decide +kernel

theorem coded_checked : (List.range 283).all (fun p => decide (codedRule p =
    (rules[p]?).map fun r => (r.lhs.code, r.rhs.map Sym.code))) = true := by decide +kernel

theorem prods_checked : (List.range 283).all (fun p => match codedRule p with
    | none => false
    | some (l, _) => (prodsOf l).contains p) = true := by decide +kernel

/-- May a sequence of symbols be empty? -/
def nullSeq (xs : List Nat) : Bool :=
  xs.all fun x => !decide (x < 100) && match lalrFirst.find? (·.1 == x) with
    | some (_, b, _) => b
    | none => false

theorem first_checked : (List.range 283).all (fun p => match codedRule p with
    | none => false
    | some (l, rhs) => match lalrFirst.find? (·.1 == l) with
      | none => false
      | some (_, b, m) => bitsIn (firstSeq rhs 0) m && (!nullSeq rhs || b)) = true := by
  decide +kernel

theorem rule_index {p : Nat} {r : Rule} (h : rules[p]? = some r) : p < 283 := by
  have := (List.getElem?_eq_some_iff.1 h).1
  rw [rules_length] at this
  exact this

theorem codedRule_eq {p : Nat} {r : Rule} (h : rules[p]? = some r) :
    codedRule p = some (r.lhs.code, r.rhs.map Sym.code) := by
  have := of_decide_eq_true (List.all_eq_true.1 coded_checked p (List.mem_range.2 (rule_index h)))
  rw [this, h]
  rfl

theorem mem_prodsOf {p : Nat} {r : Rule} (h : rules[p]? = some r) : p ∈ prodsOf r.lhs.code := by
  have := List.all_eq_true.1 prods_checked p (List.mem_range.2 (rule_index h))
  rw [codedRule_eq h] at this
  simpa using this

theorem first_of {p : Nat} {r : Rule} (h : rules[p]? = some r) :
    ∃ x b m, lalrFirst.find? (·.1 == r.lhs.code) = some (x, b, m) ∧
      bitsIn (firstSeq (r.rhs.map Sym.code) 0) m = true ∧
      (nullSeq (r.rhs.map Sym.code) = true → b = true) := by
  have := List.all_eq_true.1 first_checked p (List.mem_range.2 (rule_index h))
  rw [codedRule_eq h] at this
  simp only at this
  split at this
  · cases this
  · rename_i x b m hf
    simp only [Bool.and_eq_true, Bool.or_eq_true, Bool.not_eq_true'] at this
    refine ⟨x, b, m, hf, this.1, fun hn => ?_⟩
    rcases this.2 with h' | h'
    · rw [hn] at h'; cases h'
    · exact h'

theorem bitsIn_testBit {l m a : Nat} (h : bitsIn l m = true) (ha : l.testBit a = true) :
    m.testBit a = true := by
  have h := beq_iff_eq.1 h
  rw [← h, Nat.testBit_and, Bool.and_eq_true] at ha
  exact ha.2

theorem Term.code_lt (x : Term) : x.code < 100 := by
  unfold Term.code
  split <;> omega

theorem Nt.code_ge (x : Nt) : 100 ≤ x.code := by
  cases x <;> simp [Nt.code]

theorem condCode_iff {x : Nt} : x.code = condCode ↔ x = .condition := by
  cases x <;> simp [Nt.code, condCode]

theorem hasItem_iff {s p d l : Nat} : hasItem s p d l = true ↔
    ∃ l', (p, d, l') ∈ itemsAt s ∧ bitsIn l l' = true := by
  simp only [hasItem, List.any_eq_true, Bool.and_eq_true, beq_iff_eq]
  constructor
  · rintro ⟨⟨p', d', l'⟩, hm, ⟨rfl, rfl⟩, hb⟩
    exact ⟨l', hm, hb⟩
  · rintro ⟨l', hm, hb⟩
    exact ⟨_, hm, ⟨rfl, rfl⟩, hb⟩

variable {s p d l a : Nat} {r : Rule}

theorem find_reduction {a p l m : Nat} : ∀ {rs : List (Nat × Nat)},
    rs.find? (fun x => (x.1 &&& l) != 0) = some (m, p) → bitsIn l m = true → l.testBit a = true →
    rs.find? (·.1.testBit a) = some (m, p)
  | [], h, _, _ => by cases h
  | x :: rs, h, hm, ha => by
    simp only [List.find?_cons] at h ⊢
    split at h
    · cases h
      rw [bitsIn_testBit hm ha]
    · rename_i hx
      have : x.1.testBit a = false := by
        simp only [bne_eq_false_iff_eq] at hx
        have := congrArg (Nat.testBit · a) hx
        simp only [Nat.testBit_and, ha, Bool.and_true, Nat.zero_testBit] at this
        exact this
      rw [this]
      exact find_reduction h hm ha

/-- At the end of a production it is reduced. -/
theorem item_reduce (h : (p, d, l) ∈ itemsAt s) (hr : rules[p]? = some r)
    (hc : r.lhs ≠ .condition) (hd : r.rhs.drop d = []) (ha : l.testBit a = true) :
    lalrAction s a = some (.reduce p) := by
  have hi := item_checked h
  have hne : (r.lhs.code == condCode) = false := by
    rw [beq_eq_false_iff_ne]
    exact fun h => hc (condCode_iff.1 h)
  simp only [checkItem, codedRule_eq hr, hne, Bool.false_or, ← List.map_drop, hd, List.map_nil,
    Bool.and_eq_true, bne_iff_ne] at hi
  obtain ⟨hs, hi⟩ := hi
  have hs' : (s == lalrFinal) = false := by simpa using hs
  split at hi
  · cases hi
  · rename_i row hrow
    simp only [Bool.and_eq_true] at hi
    obtain ⟨h₁, h₂⟩ := hi
    simp only [lalrAction, hs', Bool.false_and, Bool.false_eq_true, if_false, hrow, Option.bind_some]
    have hnone : row.shifts.find? (·.1 == a) = none := by
      rw [List.find?_eq_none]
      intro x hx hxa
      have := List.all_eq_true.1 h₁ x hx
      rw [beq_iff_eq.1 hxa, ha] at this
      cases this
    rw [hnone]
    split at h₂
    · rw [beq_iff_eq.1 h₂, Nat.zero_testBit] at ha
      cases ha
    · rename_i m q hf
      simp only [Bool.and_eq_true, beq_iff_eq] at h₂
      obtain ⟨rfl, hb⟩ := h₂
      simp only [find_reduction hf hb ha]

/-- A token that comes next is shifted. -/
theorem item_shift {x : Term} {rest : List Sym} (h : (p, d, l) ∈ itemsAt s)
    (hr : rules[p]? = some r) (hc : r.lhs ≠ .condition) (hd : r.rhs.drop d = .t x :: rest) :
    ∃ s' l', lalrAction s x.code = some (.shift s') ∧ (p, d + 1, l') ∈ itemsAt s' ∧
      bitsIn l l' = true := by
  have hi := item_checked h
  have hne : (r.lhs.code == condCode) = false := by
    rw [beq_eq_false_iff_ne]
    exact fun h => hc (condCode_iff.1 h)
  simp only [checkItem, codedRule_eq hr, hne, Bool.false_or, ← List.map_drop, hd, List.map_cons,
    Sym.code, x.code_lt, if_true] at hi
  split at hi
  · rename_i s' hs'
    obtain ⟨l', hm, hb⟩ := hasItem_iff.1 hi
    exact ⟨s', l', hs', hm, hb⟩
  · cases hi

/-- A nonterminal that comes next. -/
theorem item_goto {x : Nt} {rest : List Sym} (h : (p, d, l) ∈ itemsAt s)
    (hr : rules[p]? = some r) (hc : r.lhs ≠ .condition) (hd : r.rhs.drop d = .n x :: rest) :
    ∃ s' l', lalrGoto s x.code = some s' ∧ (p, d + 1, l') ∈ itemsAt s' ∧ bitsIn l l' = true ∧
      (x = .condition → s ∈ condBases ∧
        bitsIn (firstSeq (rest.map Sym.code) l) condFollow = true) ∧
      (x ≠ .condition → ∀ q r', rules[q]? = some r' → r'.lhs = x →
        ∃ l'', (q, 0, l'') ∈ itemsAt s ∧ bitsIn (firstSeq (rest.map Sym.code) l) l'' = true) := by
  have hi := item_checked h
  have hne : (r.lhs.code == condCode) = false := by
    rw [beq_eq_false_iff_ne]
    exact fun h => hc (condCode_iff.1 h)
  have hx : ¬ x.code < 100 := Nat.not_lt.2 x.code_ge
  simp only [checkItem, codedRule_eq hr, hne, Bool.false_or, ← List.map_drop, hd, List.map_cons,
    Sym.code, hx, if_false] at hi
  split at hi
  · cases hi
  · rename_i s' hs'
    simp only [Bool.and_eq_true] at hi
    obtain ⟨l', hm, hb⟩ := hasItem_iff.1 hi.1
    refine ⟨s', l', hs', hm, hb, fun hxc => ?_, fun hxc q r' hq hl => ?_⟩
    · have := hi.2
      rw [if_pos (by rw [beq_iff_eq]; exact condCode_iff.2 hxc)] at this
      simpa using this
    · have := hi.2
      rw [if_neg (by rw [beq_iff_eq]; exact fun h => hxc (condCode_iff.1 h))] at this
      have := List.all_eq_true.1 this q (by rw [← hl]; exact mem_prodsOf hq)
      exact hasItem_iff.1 this

/-- In the first state every production of a file may begin, and the end of the file may follow. -/
theorem start_checked : (prodsOf (Nt.code .selinuxFile)).all
    (fun q => hasItem 0 q 0 (1 <<< Term.code .eof)) = true ∧
    lalrGoto 0 (Nt.code .selinuxFile) = some lalrFinal := by decide +kernel

end Lr
end Selint
