import Verif.Lemmas.LalrErrors
import Verif.Model.SyntaxMessage
import Verif.Spec.SyntaxMessages
/-!
# What bison says about a syntax error
-/

namespace Selint
namespace Lr
open Spec

/-- The tokens that a state shifts. -/
def shifted (row : LalrRow) : List Term := declared.filter fun x => row.shifts.any (·.1 == x.code)

/-- What is checked of a state without a default reduction. -/
def checkExpected (s : Nat) (row : LalrRow) : Bool :=
  row.default.isSome ||
  (if (lalrExpected s).length ≤ 4 then row.reductions.isEmpty && !(lalrExpected s).isEmpty
    else decide (4 < (shifted row).length))

theorem expected_checked : (List.range 24).all (fun i => (List.range 25).all fun j =>
    (lalrRow (25 * i + j)).all fun row => checkExpected (25 * i + j) row) = true := by decide +kernel

/-- What is checked of a state where a statement may begin. -/
def checkStatement (row : LalrRow) : Bool :=
  !(row.gotos.any (·.1 == Nt.code .bareLine)) ||
    row.gotos.all fun x => hollow.all fun y => y.code != x.1

theorem statement_checked : lalrRows.all (fun rows => rows.all checkStatement) = true := by
  decide +kernel

theorem declared_nodup : declared.Nodup := by decide +kernel

theorem row_expected {s : Nat} {row : LalrRow} (h : lalrRow s = some row) :
    checkExpected s row = true := by
  obtain ⟨i, hi, -, hii⟩ := row_place h
  have := List.all_eq_true.1 (List.all_eq_true.1 expected_checked i (List.mem_range.2 hi)) (s % 25)
    (List.mem_range.2 (Nat.mod_lt _ (by omega)))
  have e : 25 * i + s % 25 = s := by omega
  rw [e, h] at this
  exact this

/-- The topmost state has a row. -/
theorem Linked.row {stk : List (Nat × Sym)} (h : Linked stk) : ∃ row, lalrRow (topState stk) = some row := by
  have h0 : ∃ row, lalrRow 0 = some row := by
    rw [← Option.isSome_iff_exists]
    decide +kernel
  have hf : ∃ row, lalrRow lalrFinal = some row := by
    rw [← Option.isSome_iff_exists]
    decide +kernel
  have key : ∀ {u s x : Nat}, checkToEnd u (x, s) = true → ∃ row, lalrRow s = some row := by
    intro u s x hc
    simp only [checkToEnd, Bool.or_eq_true, beq_iff_eq, Bool.and_eq_true] at hc
    rcases hc with rfl | ⟨⟨-, hi⟩, -⟩
    · exact hf
    · obtain ⟨l, hl, -⟩ := hasItem_iff.1 hi
      exact item_row hl
  cases h with
  | nil => exact h0
  | tok _ ha => exact key (toEnd_of (.inl ha))
  | nt _ hg => exact key (toEnd_of (.inr hg))

theorem action_none {s a : Nat} {row : LalrRow} (h : lalrRow s = some row)
    (ha : lalrAction s a = none) : row.default = none := by
  simp only [lalrAction] at ha
  split at ha
  · cases ha
  · rw [h] at ha
    simp only [Option.bind_some] at ha
    split at ha
    · cases ha
    · split at ha
      · cases ha
      · simpa using ha

theorem shifts_action {s : Nat} {row : LalrRow} {x : Term} (h : lalrRow s = some row)
    (hx : row.shifts.any (·.1 == x.code) = true) : ∃ s', lalrAction s x.code = some (.shift s') := by
  have hne : x.code ≠ Term.code .eof := by
    have hc := row_checked h
    simp only [checkRow, Bool.and_eq_true] at hc
    obtain ⟨y, hy, hyx⟩ := List.any_eq_true.1 hx
    have := List.all_eq_true.1 hc.2 y hy
    simp only [bne_iff_ne, beq_iff_eq] at this hyx
    rw [← hyx]
    exact this
  have hf : (s == lalrFinal && x.code == Term.code .eof) = false := by
    rw [beq_eq_false_iff_ne.2 hne, Bool.and_false]
  obtain ⟨y, hy⟩ := Option.isSome_iff_exists.1 (List.find?_isSome.2 (List.any_eq_true.1 hx))
  refine ⟨y.2, ?_⟩
  simp only [lalrAction, hf, h, Option.bind_some, hy]
  rfl

/-- A token that is shifted may come next. -/
theorem Linked.mayFollow {stk : List (Nat × Sym)} (hk : Linked stk) {us : List Term}
    (hy : Yields (stk.map (·.2)).reverse us) {x : Term} {s' : Nat}
    (ha : lalrAction (topState stk) x.code = some (.shift s')) : MayFollow us x := by
  refine .inr ⟨fun he => ?_, ?_⟩
  · subst he
    exact absurd rfl (action_shift ha)
  · have hk' : Linked ((s', .t x) :: stk) := .tok hk ha
    have hy' : Yields (((s', Sym.t x) :: stk).map (·.2)).reverse (us ++ [x]) := by
      rw [List.map_cons, List.reverse_cons]
      exact hy.append (.token .nil)
    obtain ⟨more, hm⟩ := hk'.viable _ (Nat.le_refl _) hy'
    exact ⟨more, by rwa [List.append_assoc] at hm⟩

theorem eof_code {x : Term} (h : x.code = Term.code .eof) : x = .eof := by
  have := Sym.code_inj (x := .t x) (y := .t .eof) h (by decide)
  exact Sym.t.inj this

/-- What the message names may come next; if it names nothing, there is too much. -/
theorem Linked.expected {stk : List (Nat × Sym)} (hk : Linked stk) {us : List Term}
    (hy : Yields (stk.map (·.2)).reverse us) {a : Nat} (ha : lalrAction (topState stk) a = none) :
    if (lalrExpected (topState stk)).length ≤ 4 then
      lalrExpected (topState stk) ≠ [] ∧ ∀ x ∈ lalrExpected (topState stk), MayFollow us x
    else ∃ may : List Term, may.Nodup ∧ 4 < may.length ∧ ∀ x ∈ may, MayFollow us x := by
  obtain ⟨row, hrow⟩ := hk.row
  have hd := action_none hrow ha
  have hc := row_expected hrow
  simp only [checkExpected, hd, Option.isSome_none, Bool.false_or] at hc
  split
  · rename_i hlen
    rw [if_pos hlen] at hc
    simp only [Bool.and_eq_true, List.isEmpty_iff, Bool.not_eq_true',
      List.isEmpty_eq_false_iff] at hc
    refine ⟨hc.2, fun x hx => ?_⟩
    have hx := (List.mem_filter.1 hx).2
    simp only [lalrExplicit, hrow, Option.any_some, hc.1, List.any_nil, Bool.or_false,
      Bool.or_eq_true, Bool.and_eq_true, beq_iff_eq] at hx
    rcases hx with ⟨hf, he⟩ | hx
    · have := hk.final hf
      subst this
      exact .inl ⟨eof_code he, hy⟩
    · obtain ⟨s', hs'⟩ := shifts_action hrow hx
      exact hk.mayFollow hy hs'
  · rename_i hlen
    rw [if_neg hlen] at hc
    refine ⟨shifted row, declared_nodup.filter _, by simpa using hc, fun x hx => ?_⟩
    obtain ⟨s', hs'⟩ := shifts_action hrow (List.mem_filter.1 hx).2
    exact hk.mayFollow hy hs'

theorem goto_solid {u s : Nat} {x : Nt} (hu : shiftsError u = true) (h : lalrGoto u x.code = some s) :
    Sym.solid (.n x) = true := by
  simp only [shiftsError, Option.isSome_iff_exists, lalrGoto, Option.bind_eq_some_iff,
    Option.map_eq_some_iff] at hu h
  obtain ⟨s₁, row, hrow, y, hy, -⟩ := hu
  obtain ⟨row', hrow', z, hz, -⟩ := h
  rw [hrow] at hrow'
  cases hrow'
  have hm : ∃ rows ∈ lalrRows, row ∈ rows := by
    simp only [lalrRow, Option.bind_eq_some_iff] at hrow
    obtain ⟨rows, h₁, h₂⟩ := hrow
    exact ⟨rows, List.mem_of_getElem? h₁, List.mem_of_getElem? h₂⟩
  obtain ⟨rows, hr, hrr⟩ := hm
  have hc := List.all_eq_true.1 (List.all_eq_true.1 statement_checked rows hr) row hrr
  have hb : row.gotos.any (·.1 == Nt.code .bareLine) = true :=
    List.any_eq_true.2 ⟨y, List.mem_of_find?_eq_some hy, by
      have := List.find?_some hy
      exact this⟩
  simp only [checkStatement, hb, Bool.not_true, Bool.false_or] at hc
  have hz' := List.all_eq_true.1 hc z (List.mem_of_find?_eq_some hz)
  have hzx : z.1 = x.code := by simpa using List.find?_some hz
  simp only [Sym.solid, Bool.not_eq_true', List.contains_eq_mem, decide_eq_false_iff_not]
  intro hmem
  have := List.all_eq_true.1 hz' x hmem
  rw [hzx] at this
  simp at this

/-- Where a statement may begin. -/
theorem Linked.statement {stk : List (Nat × Sym)} (hk : Linked stk) {us : List Term}
    (hy : Yields (stk.map (·.2)).reverse us) (hs : shiftsError (topState stk) = true) :
    StatementMayFollow us := by
  obtain ⟨s', hg⟩ := Option.isSome_iff_exists.1 hs
  intro w hw
  have hk' : Linked ((s', .n .bareLine) :: stk) := .nt hk hg
  refine hk'.viable _ (Nat.le_refl _) ?_
  rw [List.map_cons, List.reverse_cons]
  exact hy.append hw

/-- The line of the first of these tokens. -/
def headLine (endLine : Nat) (after : Located) : Nat := (after.head?.map (·.1)).getD endLine

/-- The statement that is called invalid begins with a token where a statement may begin. -/
theorem Laid.recovers {endLine line : Nat} {stk : List (Nat × Sym)} {sps : List Span}
    {segs : List Located} (h : Laid stk sps segs) : Linked stk → ∀ {first : Nat} {after : Located},
    (shiftsError (topState stk) = true → first = headLine endLine after) →
    recoverLine (stk.map (·.1) ++ [0]) sps first = some line →
    ∃ us vs, segs.reverse.flatten ++ after = us ++ vs ∧ us.length ≤ segs.reverse.flatten.length ∧
      StatementMayFollow (termsOf us) ∧ line = headLine endLine vs := by
  induction h with
  | nil =>
    intro _ first after hf hr
    have h0 : shiftsError 0 = false := by decide +kernel
    simp [recoverLine, h0] at hr
  | @cons stk sps segs s x sp seg h hy hs ih =>
    intro hk first after hf hr
    have hlaid := Laid.cons (s := s) h hy hs
    by_cases he : shiftsError s = true
    · simp only [List.map_cons, List.cons_append, recoverLine, if_pos he, Option.some.injEq] at hr
      subst hr
      exact ⟨_, after, rfl, Nat.le_refl _, hk.statement hlaid.yields he, hf he⟩
    · simp only [List.map_cons, List.cons_append, recoverLine, if_neg he] at hr
      have hk' : Linked stk := hk.drop (n := 1)
      obtain ⟨us, vs, h₁, h₂, h₃, h₄⟩ := ih hk' (first := sp.first) (after := seg ++ after)
        (fun hu => by
          have hsol : x.solid = true := by
            cases hk with
            | tok _ _ => rfl
            | nt _ hg => exact goto_solid hu hg
          obtain ⟨t, us, rfl, ht⟩ := hs hsol
          rw [ht]
          rfl) hr
      refine ⟨us, vs, ?_, ?_, h₃, h₄⟩
      · rw [← h₁, List.reverse_cons, List.flatten_append, List.flatten_singleton, List.append_assoc]
      · rw [List.reverse_cons, List.flatten_append, List.length_append]
        omega

end Lr
end Selint
