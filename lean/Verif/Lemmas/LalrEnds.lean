import Verif.Lemmas.LalrPhases
import Verif.Lemmas.LalrAccepts
/-!
# `yyparse` comes to an end
-/

namespace Selint
namespace Lr
open Spec

/-- How many empty productions may be reduced from a state on before a token is shifted. -/
def phase (s : Nat) : Nat := ((phaseTable.find? (·.1 == s)).map (·.2)).getD 0

/-- The same for the states that a nonterminal leads to. -/
def phaseAfter (x : Nat) : Nat := ((phasesAfter.find? (·.1 == x)).map (·.2)).getD 0

/-- The weight of a symbol. -/
def weight (x : Nat) : Nat := if x < 100 then 13 else (ntWeights[x - 100]?).getD 0

/-- The weight of several symbols. -/
def weights (xs : List Nat) : Nat := (xs.map weight).sum

/-- What is checked of a production. -/
def checkWeight (r : Nat × List Nat) : Bool :=
  decide (weight r.1 ≤ 12) && (r.2.isEmpty || decide (weight r.1 < weights r.2))

/-- What is checked of a state. -/
def checkRow (s : Nat) (row : LalrRow) : Bool :=
  ((row.reductions.map (·.2) ++ row.default.toList).all fun p =>
    (codedRule p).all fun r =>
      if r.2.isEmpty then (row.gotos.find? (·.1 == r.1)).all fun x => decide (phase x.2 < phase s)
      else decide (phaseAfter r.1 ≤ phase s)) &&
  row.gotos.all (fun x => decide (phase x.2 ≤ phaseAfter x.1)) &&
  row.shifts.all (fun x => x.1 != Term.code .eof)

theorem weights_checked : codedRules.all (fun rs => rs.all checkWeight) = true := by decide +kernel

theorem phases_checked : phaseTable.all (fun x => decide (x.2 ≤ 3)) = true := by decide +kernel

theorem rows_checked : (List.range 24).all (fun i => (List.range 25).all fun j =>
    (lalrRow (25 * i + j)).all (checkRow (25 * i + j))) = true := by decide +kernel

theorem phase_le (s : Nat) : phase s ≤ 3 := by
  simp only [phase]
  cases h : phaseTable.find? (·.1 == s) with
  | none => simp
  | some x =>
    have := List.all_eq_true.1 phases_checked x (List.mem_of_find?_eq_some h)
    simpa using this

theorem row_checked {s : Nat} {row : LalrRow} (h : lalrRow s = some row) : checkRow s row = true := by
  obtain ⟨i, hi, -, hii⟩ := row_place h
  have := List.all_eq_true.1 (List.all_eq_true.1 rows_checked i (List.mem_range.2 hi)) (s % 25)
    (List.mem_range.2 (Nat.mod_lt _ (by omega)))
  have e : 25 * i + s % 25 = s := by omega
  rw [e, h] at this
  exact this

theorem rule_weight {p : Nat} {r : Rule} (h : rules[p]? = some r) : weight r.lhs.code ≤ 12 ∧
    (r.rhs ≠ [] → weight r.lhs.code < weights (r.rhs.map Sym.code)) := by
  have hc := codedRule_eq h
  simp only [codedRule, Option.bind_eq_some_iff] at hc
  obtain ⟨rs, h₁, h₂⟩ := hc
  have := List.all_eq_true.1 (List.all_eq_true.1 weights_checked rs (List.mem_of_getElem? h₁)) _
    (List.mem_of_getElem? h₂)
  simp only [checkWeight, Bool.and_eq_true, decide_eq_true_eq, Bool.or_eq_true,
    List.isEmpty_iff, List.map_eq_nil_iff] at this
  refine ⟨this.1, fun hne => ?_⟩
  rcases this.2 with h | h
  · exact absurd h hne
  · exact h

/-- What the tables' entry says. -/
theorem action_reduce {s a p : Nat} (h : lalrAction s a = some (.reduce p)) :
    ∃ row, lalrRow s = some row ∧ p ∈ row.reductions.map (·.2) ++ row.default.toList := by
  simp only [lalrAction] at h
  split at h
  · cases h
  · simp only [Option.bind_eq_some_iff] at h
    obtain ⟨row, hrow, h⟩ := h
    refine ⟨row, hrow, ?_⟩
    split at h
    · cases h
    · split at h
      · rename_i x hx
        cases h
        exact List.mem_append.2 (.inl (List.mem_map.2 ⟨x, List.mem_of_find?_eq_some hx, rfl⟩))
      · simp only [Option.map_eq_some_iff] at h
        obtain ⟨q, hq, h⟩ := h
        cases h
        rw [hq]
        simp

theorem action_shift {s a s' : Nat} (h : lalrAction s a = some (.shift s')) :
    a ≠ Term.code .eof := by
  simp only [lalrAction] at h
  split at h
  · cases h
  · simp only [Option.bind_eq_some_iff] at h
    obtain ⟨row, hrow, h⟩ := h
    split at h
    · rename_i x hx
      have hc := row_checked hrow
      simp only [checkRow, Bool.and_eq_true] at hc
      have := List.all_eq_true.1 hc.2 x (List.mem_of_find?_eq_some hx)
      have ha : x.1 = a := by simpa using List.find?_some hx
      rw [← ha]
      simpa using this
    · split at h
      · cases h
      · simp only [Option.map_eq_some_iff] at h
        obtain ⟨q, hq, h⟩ := h
        cases h

/-- Empty productions descend, the others do not ascend. -/
theorem phase_reduce {s a p t s' : Nat} {r : Rule} (ha : lalrAction s a = some (.reduce p))
    (hr : rules[p]? = some r) (hg : lalrGoto t r.lhs.code = some s') :
    (r.rhs = [] → t = s → phase s' < phase s) ∧ (r.rhs ≠ [] → phase s' ≤ phase s) := by
  obtain ⟨row, hrow, hp⟩ := action_reduce ha
  have hc := row_checked hrow
  simp only [checkRow, Bool.and_eq_true] at hc
  have h₁ := List.all_eq_true.1 hc.1.1 p hp
  rw [codedRule_eq hr] at h₁
  simp only [Option.all_some] at h₁
  simp only [lalrGoto, Option.bind_eq_some_iff, Option.map_eq_some_iff] at hg
  obtain ⟨row', hrow', x, hx, rfl⟩ := hg
  refine ⟨fun he ht => ?_, fun hne => ?_⟩
  · subst ht
    rw [hrow] at hrow'
    cases hrow'
    rw [if_pos (by simp [he]), hx] at h₁
    simpa using h₁
  · rw [if_neg (by simpa using hne)] at h₁
    have hc' := row_checked hrow'
    simp only [checkRow, Bool.and_eq_true] at hc'
    have h₂ := List.all_eq_true.1 hc'.1.2 x (List.mem_of_find?_eq_some hx)
    have hxa : x.1 = r.lhs.code := by simpa using List.find?_some hx
    simp only [decide_eq_true_eq] at h₁ h₂
    rw [hxa] at h₂
    omega

/-! ## The budget -/

/-- The tokens that have not been shifted. -/
def Drive.left (d : Drive) : Nat :=
  d.input.length + match d.l.c.look with
    | none => 0
    | some e => if e.sym.code = Term.code .eof then 0 else 1

/-- An upper bound for the rounds that are left. -/
def Drive.budget (d : Drive) : Nat :=
  54 * d.left + (if d.l.c.look.isNone then 40 else 13 * phase (d.states.head?.getD 0)) +
    weights (d.l.c.stack.map fun e => e.sym.code)

theorem weights_append (xs ys : List Nat) : weights (xs ++ ys) = weights xs + weights ys := by
  simp [weights]

theorem weights_reverse (xs : List Nat) : weights xs.reverse = weights xs := by
  simp [weights]

theorem weights_cons (x : Nat) (ys : List Nat) : weights (x :: ys) = weight x + weights ys := by
  simp [weights]

theorem Follows.spend {l₀ : Lined} {ts : Located} {d d' : Drive} (h : Follows l₀ ts d)
    (hs : d.step = .ok (.go d')) : d'.budget < d.budget := by
  simp only [Drive.step] at hs
  split at hs
  · rename_i hlook
    have key : ∀ {n t rest}, d.make (.read n t) d.states rest = .ok (.go d') →
        d.input = t.toList.map (n, ·) ++ rest → d'.budget < d.budget := by
      intro n t rest hm ht
      obtain ⟨l, hl, rfl⟩ := Drive.make_go hm
      obtain ⟨h₁, h₂⟩ := step_read hl
      obtain ⟨v, h₃, h₄⟩ := readToken_look d.l.c t
      have hp := phase_le (d.states.head?.getD 0)
      have hleft : Drive.left ⟨l, d.states, rest⟩ = d.left := by
        simp only [Drive.left, h₂, h₃, hlook, ht]
        cases t with
        | none => simp [tokenSym, Sym.code]
        | some t =>
          have hne : (tokenSym (some t)).code ≠ Term.code .eof := fun hc => by
            cases eofCode_iff.1 hc
          rw [if_neg hne]
          simp
      simp only [Drive.budget, hleft, h₂, h₃, h₄, hlook, Option.isNone_some, Option.isNone_none,
        if_true, Bool.false_eq_true, if_false]
      omega
    split at hs
    · rename_i hin
      exact key hs (by simp [hin])
    · rename_i hin
      exact key hs (by simp [hin])
  · rename_i e hlook
    split at hs
    · cases hs
    · rename_i s rest hst
      split at hs
      · cases hs
      · cases hs
      · rename_i s' ha
        obtain ⟨l, hl, rfl⟩ := Drive.make_go hs
        obtain ⟨e', hle, hc⟩ := step_shift hl
        rw [hlook] at hle
        cases hle
        obtain ⟨⟨x, hx⟩, -⟩ := h.look e hlook
        have hw : weight e.sym.code = 13 := by
          rw [hx, weight, if_pos (show (Sym.t x).code < 100 from Term.code_lt _)]
        simp only [Drive.budget, Drive.left, hc, hlook, if_neg (action_shift ha), List.map_cons,
          weights_cons, hw, Option.isNone_some, Option.isNone_none, if_true, Bool.false_eq_true,
          if_false]
        omega
      · rename_i p ha
        split at hs
        · cases hs
        · rename_i r hr
          simp only [Drive.reduceBy] at hs
          split at hs
          · cases hs
          · rename_i t rest' hdrop
            split at hs
            · cases hs
            · rename_i s' hg
              obtain ⟨l, hl, rfl⟩ := Drive.make_go hs
              simp only [Lined.step] at hl
              split at hl
              · cases hl
              · cases hl
              · rename_i c hc
                cases hl
                obtain ⟨v, hstk, hlk⟩ := step_reduce hc
                have hfit : d.l.c.fits r = true := by
                  simp only [Config.step] at hc
                  split at hc
                  · assumption
                  · cases hc
                obtain ⟨B, P, S, hst', hB, hP, -, -⟩ := fits_split hfit
                have hsum : weights (d.l.c.stack.map fun e => e.sym.code) =
                    weights (r.rhs.map Sym.code) +
                    weights ((d.l.c.stack.drop r.rhs.length).map fun e => e.sym.code) := by
                  rw [hst', List.drop_left' (by simp [← hP]), List.map_append, weights_append,
                    List.map_reverse, weights_reverse, ← hP, List.map_map]
                  rfl
                obtain ⟨hw₁, hw₂⟩ := rule_weight hr
                obtain ⟨hp₁, hp₂⟩ := phase_reduce ha hr hg
                have hlt : 13 * phase s' + weight r.lhs.code <
                    13 * phase s + weights (r.rhs.map Sym.code) := by
                  by_cases he : r.rhs = []
                  · have : t = s := by
                      rw [he, hst] at hdrop
                      exact (List.cons.inj hdrop).1.symm
                    have := hp₁ he this
                    omega
                  · have := hp₂ he
                    have := hw₂ he
                    omega
                have hcode : (Sym.n r.lhs).code = r.lhs.code := rfl
                simp only [Drive.budget, Drive.left, hlk, hlook, hst, hstk, List.head?_cons,
                  Option.getD_some, List.map_cons, weights_cons, hcode, Option.isNone_some,
                  Bool.false_eq_true, if_false, hsum]
                omega
              · cases hl

theorem Follows.rounds {l₀ : Lined} {ts : Located} {d d' : Drive} {n : Nat} (h : Follows l₀ ts d)
    (hr : DriveRounds d n d') : Follows l₀ ts d' ∧ n + d'.budget ≤ d.budget := by
  induction hr with
  | none => exact ⟨h, by omega⟩
  | one _ hs ih =>
    have := ih.1.spend hs
    exact ⟨ih.1.step hs, by omega⟩

theorem DriveRounds.reaches {d d' : Drive} {n : Nat} (hr : DriveRounds d n d') :
    DriveReaches d d' := by
  induction hr with
  | none => exact .refl
  | one _ hs ih => exact .step ih hs

/-- It ends. -/
theorem Follows.ends {l₀ : Lined} {ts : Located} {d₀ : Drive} (h : Follows l₀ ts d₀) :
    ∃ n d, DriveRounds d₀ n d ∧ ∀ d', d.step ≠ .ok (.go d') := by
  have key : ∀ (b : Nat) (n : Nat) (d : Drive), DriveRounds d₀ n d → d.budget ≤ b →
      ∃ n d, DriveRounds d₀ n d ∧ ∀ d', d.step ≠ .ok (.go d') := by
    intro b
    induction b with
    | zero =>
      intro n d hr hb
      refine ⟨n, d, hr, fun d' hs => ?_⟩
      have := (h.rounds hr).1.spend hs
      omega
    | succ b ih =>
      intro n d hr hb
      by_cases hs : ∃ d', d.step = .ok (.go d')
      · obtain ⟨d', hs⟩ := hs
        have := (h.rounds hr).1.spend hs
        exact ih _ d' (.one hr hs) (by omega)
      · exact ⟨n, d, hr, fun d' hs' => hs ⟨d', hs'⟩⟩
  exact key _ 0 d₀ .none (Nat.le_refl _)

end Lr
end Selint
