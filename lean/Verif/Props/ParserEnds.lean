import Verif.Lemmas.LalrFits
import Verif.Props.ParserTables
/-!
# C96: `yyparse` comes to an end, and why
-/

namespace Selint
open Spec Lr

/-- **C96 (linear).** On a file of `n` tokens `yyparse` makes at most `54 n + 40` rounds. -/
theorem C96_linear {m₀ : Mem} {expected : PlainFlavor} {mod : Str} {maps : Maps} {ts : Located}
    {n : Nat} {d : Drive} (h : DriveRounds (Drive.start m₀ expected mod maps ts) n d) :
    n ≤ 54 * ts.length + 40 := by
  have := (Follows.start.rounds h).2
  have e : (Drive.start m₀ expected mod maps ts).budget = 54 * ts.length + 40 := rfl
  omega

/-- **C96 (ends).** `yyparse` comes to an end on every sequence of tokens. -/
theorem C96_ends (m₀ : Mem) (expected : PlainFlavor) (mod : Str) (maps : Maps) (ts : Located) :
    ∃ n d, DriveRounds (Drive.start m₀ expected mod maps ts) n d ∧ n ≤ 54 * ts.length + 40 ∧
      ∀ d', d.step ≠ .ok (.go d') := by
  obtain ⟨n, d, h, hs⟩ := (Follows.start (m := m₀) (expected := expected) (mod := mod)
    (maps := maps) (ts := ts)).ends
  exact ⟨n, d, h, C96_linear h, hs⟩

/-- **C96 (errors).** When `yyparse` gives up, the tables have no entry for the token that was read,
or an action came to `YYERROR`: what the tables reduce is always on the stack, and the state below
knows where to go. -/
theorem C96_errors {m₀ : Mem} {expected : PlainFlavor} {mod : Str} {maps : Maps} {ts : Located}
    {d : Drive} (h : DriveReaches (Drive.start m₀ expected mod maps ts) d)
    (hs : d.step = .ok .reject) :
    (∃ e s rest, d.l.c.look = some e ∧ d.states = s :: rest ∧ lalrAction s e.sym.code = none) ∨
    ∃ r l, d.l.step (.reduce r) = some (.ok (.error l)) :=
  (Follows.start.reaches h).rejects hs

/-- Undefined behaviour of `yyparse` is that of the machine. -/
theorem Lr.Drive.step_ub {d : Drive} (h : d.step = .ub) : ∃ mv, d.l.step mv = some .ub := by
  have key : ∀ {mv states input}, d.make mv states input = .ub → ∃ mv, d.l.step mv = some .ub := by
    intro mv states input hm
    simp only [Drive.make] at hm
    split at hm
    · cases hm
    · rename_i hu
      exact ⟨mv, hu⟩
    · cases hm
    · cases hm
  simp only [Drive.step] at h
  split at h
  · split at h
    · exact key h
    · exact key h
  · split at h
    · cases h
    · split at h
      · cases h
      · cases h
      · exact key h
      · split at h
        · cases h
        · simp only [Drive.reduceBy] at h
          split at h
          · cases h
          · split at h
            · cases h
            · exact key h

/-- **C96 (undefined).** `yyparse` does nothing undefined, unless a call of an interface cannot be
expanded. -/
theorem C96_safe {m₀ : Mem} (hb : Bounded m₀) {expected : PlainFlavor} {mod : Str} {maps : Maps}
    {ts : Located} {d : Drive} (h : DriveReaches (Drive.start m₀ expected mod maps ts) d)
    (hs : d.step = .ub) : Unexpandable d.l.c.ms := by
  obtain ⟨us, hl, -⟩ := (Follows.start.reaches h).moves
  obtain ⟨mv, hu⟩ := d.step_ub hs
  have hp : ParserReaches (start m₀ expected mod maps) us.toks d.l.c := hl.plain
  have : ∃ mv', d.l.c.step mv' = some .ub := by
    cases mv with
    | read n t =>
      simp only [Lined.step, Config.step] at hu
      cases hk : d.l.c.look <;> rw [hk] at hu <;> cases hu
    | shift =>
      simp only [Lined.step, Config.step] at hu
      cases hk : d.l.c.look <;> rw [hk] at hu <;> cases hu
    | reduce r =>
      simp only [Lined.step] at hu
      split at hu
      · cases hu
      · rename_i hc
        exact ⟨_, hc⟩
      · cases hu
      · cases hu
  obtain ⟨mv', hu'⟩ := this
  exact (C90_safe hb hp hu').2

/-- **C96.** For every sequence of tokens there is one end: `yyparse` accepts, and there is a
derivation whose actions succeed; or it rejects, and there is none, and giving up is defined; or a
call of an interface cannot be expanded. -/
theorem C96_verdict {m₀ : Mem} (hb : Bounded m₀) (expected : PlainFlavor) (mod : Str) (maps : Maps)
    (ts : Located) : ∃ d, DriveReaches (Drive.start m₀ expected mod maps ts) d ∧
      ((d.step = .ok .accept ∧ ∃ g st, g.At ts ∧ SourceFile.exec g expected mod maps = .ok (some st)) ∨
      (d.step = .ok .reject ∧
        (¬∃ g st, g.At ts ∧ SourceFile.exec g expected mod maps = .ok (some st)) ∧
        ∃ m, d.l.c.giveUp (root m₀) = .ok m) ∨
      (d.step = .ub ∧ Unexpandable d.l.c.ms)) := by
  obtain ⟨n, d, hr, -, hend⟩ := C96_ends m₀ expected mod maps ts
  have hr := DriveRounds.reaches hr
  refine ⟨d, hr, ?_⟩
  cases hs : d.step with
  | ub => exact .inr (.inr ⟨rfl, C96_safe hb hr hs⟩)
  | ok x =>
    cases x with
    | go d' => exact absurd hs (hend d')
    | accept =>
      exact .inl ⟨rfl, (C95_language hb expected mod maps ts).1 ⟨d, hr, hs⟩⟩
    | reject =>
      refine .inr (.inl ⟨rfl, fun hx => ?_, ?_⟩)
      · obtain ⟨d₁, hr₁, hs₁⟩ := (C95_language hb expected mod maps ts).2 hx
        have := C95_once hr₁ hr hs₁ (fun d' h => by rw [hs] at h; cases h)
        rw [this, hs₁] at hs
        cases hs
      · obtain ⟨us, hl, -⟩ := (Follows.start.reaches hr).moves
        obtain ⟨m, -, -, hm, -⟩ := C90_rejected hb hl.plain
        exact ⟨m, hm⟩

/-! ### C96 is about something -/

/-- A number of rounds. -/
def driveFor : Nat → Drive → Res DriveNext
  | 0, d => d.step
  | n + 1, d =>
    match d.step with
    | .ok (.go d') => driveFor n d'
    | r => r

/-- A require block without its closing brace is rejected. -/
example : (match driveFor 100 (Drive.start ⟨fun _ => none, 0⟩ .teFile cs!"m" {}
      ((lexFile cs!"policy_module(foo, 1.0)\nrequire {\n\ttype a_t;\n").getD [])) with
    | .ok .reject => true
    | _ => false) = true := by
  with_unfolding_all rfl

/-- A te file where an if file should be is rejected by an action. -/
example : (match driveFor 100 (Drive.start ⟨fun _ => none, 0⟩ .ifFile cs!"m" {}
      ((lexFile bracedText).getD [])) with
    | .ok .reject => true
    | _ => false) = true := by
  with_unfolding_all rfl

/-- The right kind is accepted. -/
example : (match driveFor 100 (Drive.start ⟨fun _ => none, 0⟩ .teFile cs!"m" {}
      ((lexFile bracedText).getD [])) with
    | .ok .accept => true
    | _ => false) = true := by
  with_unfolding_all rfl

end Selint
