import Verif.Lemmas.SyntaxOutput
/-!
# What is on the stack when an action refuses a file
-/

namespace Selint
namespace Lr
open Spec

/-- Only two statements come to `YYERROR`. -/
theorem Cmd.exec_error {expected : PlainFlavor} {line : Nat} {vals : List Val} {s s' : Act} {c : Cmd}
    (h : c.exec expected line vals s = .ok (.error s')) :
    (∃ fl rel, c = .expect fl rel ∧ expected ≠ fl) ∨
      ∃ n rel fl, c = .expectAllow n rel ∧ avAt vals n = .ok fl ∧ fl ≠ .allow := by
  have hstep : ∀ {s : Act} {r : Res MState} {s'}, s.step r ≠ .ok (.error s') := by
    intro s r s' h
    simp only [Act.step] at h
    obtain ⟨x, -, h⟩ := Res.bind_eq_ok h
    cases h
  have hword : ∀ {s : Act} {r} {s'}, s.word r ≠ .ok (.error s') := by
    intro s r s' h
    simp only [Act.word] at h
    obtain ⟨x, -, h⟩ := Res.bind_eq_ok h
    cases h
  have hlist : ∀ {s : Act} {r} {s'}, s.list r ≠ .ok (.error s') := by
    intro s r s' h
    simp only [Act.list] at h
    obtain ⟨x, -, h⟩ := Res.bind_eq_ok h
    cases h
  cases c with
  | expect fl rel =>
    simp only [Cmd.exec] at h
    split at h
    · cases h
    · rename_i hne
      exact .inl ⟨fl, rel, rfl, hne⟩
  | expectAllow n rel =>
    simp only [Cmd.exec] at h
    obtain ⟨fl, hfl, h⟩ := Res.bind_eq_ok h
    split at h
    · cases h
    · rename_i hne
      exact .inr ⟨n, rel, fl, rfl, hfl, hne⟩
  | _ =>
    exfalso
    simp only [Cmd.exec] at h
    first
      | exact hstep h
      | exact hword h
      | exact hlist h
      | (cases h; done)
      | (obtain ⟨x, -, h⟩ := Res.bind_eq_ok h
         first
           | exact hstep h
           | exact hword h
           | exact hlist h
           | (cases h; done)
           | (obtain ⟨x, -, h⟩ := Res.bind_eq_ok h
              first
                | exact hstep h
                | exact hword h
                | exact hlist h
                | (cases h; done)
                | (obtain ⟨x, -, h⟩ := Res.bind_eq_ok h
                   first
                     | exact hstep h
                     | exact hword h
                     | exact hlist h
                     | (cases h; done)
                     | (obtain ⟨x, -, h⟩ := Res.bind_eq_ok h
                        first
                          | exact hstep h
                          | (cases h; done)
                          | (obtain ⟨x, -, h⟩ := Res.bind_eq_ok h
                             first
                               | exact hstep h
                               | (cases h; done)
                               | (obtain ⟨x, -, h⟩ := Res.bind_eq_ok h
                                  exact hstep h))))))
      | (split at h <;> cases h)

theorem tail_checked : rules.all (fun r => (r.action.drop 1).all fun c => c.complaint.isNone) = true := by
  decide +kernel

theorem execAll_go {expected : PlainFlavor} {line : Nat} {vals : List Val} : ∀ {cs : List Cmd} {s s' : Act},
    cs.all (fun c => c.complaint.isNone) = true → execAll expected line vals cs s ≠ .ok (.error s')
  | [], s, s', _ => by
    intro h
    cases h
  | c :: cs, s, s', hc => by
    intro h
    simp only [List.all_cons, Bool.and_eq_true] at hc
    simp only [execAll] at h
    obtain ⟨x, hx, h⟩ := Res.bind_eq_ok h
    cases x with
    | go s₁ => exact execAll_go hc.2 h
    | error s₁ =>
      rcases Cmd.exec_error hx with ⟨fl, rel, rfl, -⟩ | ⟨n, rel, fl, rfl, -, -⟩ <;>
        exact absurd hc.1 (by simp [Cmd.complaint])

/-- Why an action comes to `YYERROR`: its first statement. -/
theorem step_error {c c' : Config} {r : Rule} {line : Nat}
    (h : c.step (.reduce r line) = some (.ok (.error c'))) : r ∈ rules ∧
    ∃ cmd rest, r.action = cmd :: rest ∧
      ((∃ fl rel, cmd = .expect fl rel ∧ c.expected ≠ fl) ∨
        ∃ n rel fl, cmd = .expectAllow n rel ∧ fl ≠ .allow ∧
          avAt ((c.stack.take (r.before.length + r.rhs.length)).reverse.map Entry.val) n = .ok fl) := by
  simp only [Config.step] at h
  split at h
  · rename_i hfit
    simp only [Config.fits, Bool.and_eq_true, decide_eq_true_eq] at hfit
    have hr := hfit.1.1
    refine ⟨hr, ?_⟩
    simp only [Config.reduce, Option.some.injEq] at h
    obtain ⟨x, hx, h⟩ := Res.bind_eq_ok h
    cases x with
    | go s => cases h
    | error s =>
      have ht := List.all_eq_true.1 tail_checked r hr
      cases ha : r.action with
      | nil =>
        rw [ha] at hx
        cases hx
      | cons cmd rest =>
        rw [ha] at hx ht
        refine ⟨cmd, rest, rfl, ?_⟩
        simp only [execAll] at hx
        obtain ⟨y, hy, hx⟩ := Res.bind_eq_ok hx
        cases y with
        | go s₁ => exact absurd hx (execAll_go ht)
        | error s₁ =>
          rcases Cmd.exec_error hy with ⟨fl, rel, rfl, hne⟩ | ⟨n, rel, fl, rfl, hav, hne⟩
          · exact .inl ⟨fl, rel, rfl, hne⟩
          · exact .inr ⟨n, rel, fl, rfl, hne, hav⟩
  · cases h

/-- The kind of file that is expected does not change. -/
theorem Drive.step_expected {d d' : Drive} (h : d.step = .ok (.go d')) :
    d'.l.c.expected = d.l.c.expected := by
  have key : ∀ {mv states input}, d.make mv states input = .ok (.go d') →
      d'.l.c.expected = d.l.c.expected := by
    intro mv states input hm
    obtain ⟨l, hl, rfl⟩ := Drive.make_go hm
    cases mv with
    | read n t =>
      rw [(step_read hl).2]
      cases t with
      | none => rfl
      | some t => cases t <;> rfl
    | shift =>
      obtain ⟨e, -, hc⟩ := step_shift hl
      rw [hc]
    | reduce r =>
      simp only [Lined.step] at hl
      split at hl
      · cases hl
      · cases hl
      · rename_i c hc
        cases hl
        simp only [Config.step] at hc
        split at hc
        · simp only [Config.reduce, Option.some.injEq] at hc
          obtain ⟨x, -, hc⟩ := Res.bind_eq_ok hc
          cases x with
          | go s => cases hc; rfl
          | error s => cases hc
        · cases hc
      · cases hl
  simp only [Drive.step] at h
  split at h
  · split at h
    · exact key h
    · exact key h
  · split at h
    · cases h
    · split at h
      · cases h
      · cases h
      · exact key h
      · split at h
        · cases h
        · simp only [Drive.reduceBy] at h
          split at h
          · cases h
          · split at h
            · cases h
            · exact key h

theorem drive_expected {d₀ d : Drive} (h : DriveReaches d₀ d) : d.l.c.expected = d₀.l.c.expected := by
  induction h with
  | refl => rfl
  | step _ hs ih => rw [Drive.step_expected hs, ih]

theorem asking_locating {before : Location} {fin : Location × LineCache} {q₀ q : Asking}
    (h : AskingReaches before fin q₀ q) : LocatingReaches before fin q₀.p q.p := by
  induction h with
  | refl => exact .refl
  | @step q q' _ hs ih =>
    simp only [Asking.step, Option.map_eq_some_iff] at hs
    obtain ⟨p, hp, rfl⟩ := hs
    refine ih.step (p := q.p) ?_
    rw [hp]
    split
    · split <;> rfl
    · rfl

/-- And it can do all that `yyparse` does. -/
theorem locating_asking {before : Location} {fin : Location × LineCache} {q₀ : Asking} {p : Locating}
    (h : LocatingReaches before fin q₀.p p) : ∃ q, AskingReaches before fin q₀ q ∧ q.p = p := by
  induction h with
  | refl => exact ⟨q₀, .refl, rfl⟩
  | @step p p' _ hs ih =>
    obtain ⟨q, hq, rfl⟩ := ih
    have : ∃ q', q.step before fin = some q' ∧ q'.p = p' := by
      simp only [Asking.step, hs, Option.map_some]
      refine ⟨_, rfl, ?_⟩
      split
      · split <;> rfl
      · rfl
    obtain ⟨q', hs', hp⟩ := this
    exact ⟨q', hq.step hs', hp⟩

/-- How many tokens have been shifted. -/
theorem Locates.shifted {ts : Scanned} {fin : Location × LineCache} {p : Locating} {pre look : Scanned}
    {stk : List (Nat × Sym)} {segs : List Scanned} (h : Locates ts fin p pre look stk segs) :
    pre = ts.take (ts.length - p.input.length -
      (if p.d.l.c.look.any (fun e => decide (e.sym ≠ .t .eof)) then 1 else 0)) := by
  have hl := h.looks
  have hall := h.all
  have hlen : look.length = if p.d.l.c.look.any (fun e => decide (e.sym ≠ .t .eof)) then 1 else 0 := by
    simp only [Locating.Looks] at hl
    split at hl
    · rename_i hn
      rw [hl, hn]
      rfl
    · rename_i e hn
      rcases hl with ⟨rfl, -, hs, -⟩ | ⟨t, rfl, hs⟩
      · simp [hn, hs]
      · have : ¬ (.t (term t).1 : Sym) = .t .eof := fun h => by
          have := (eofCode_iff (t := some t)).1 (by rw [tokenSym_some, h]; rfl)
          cases this
        simp [hn, hs, this]
  rw [← hlen, hall]
  have : (pre ++ (look ++ p.input)).length - p.input.length - look.length = pre.length := by
    simp only [List.length_append]
    omega
  rw [this, List.take_left]

/-- When bison has read a token, and which one was shifted last. -/
structure Asks (ts : Scanned) (fin : Location × LineCache) (q : Asking) : Prop where
  last : ∀ {pre look stk segs}, Locates ts fin q.p pre look stk segs → ∀ {us t}, pre = us ++ [t] →
    q.last = (t.1, t.2.2)
  fresh : ∀ {e}, q.p.d.l.c.stack.head? = some e → e.sym.closed = true → q.asked = false

/-- The closing bracket of a list of permissions needs no token behind it. -/
def checkBracket (s : Nat) (r : Rule) : Bool :=
  !Sym.closed (.n r.lhs) || (onlyReduces s && r.rhs.getLast?.any Sym.closed)

theorem bracket_checked : (List.range 24).all (fun i => (List.range 25).all fun j =>
    (lalrRow (25 * i + j)).all fun row =>
      (row.default.toList ++ row.reductions.map (·.2)).all fun q =>
        (rules[q]?).all (checkBracket (25 * i + j))) = true := by decide +kernel

/-- What is true of every production that a state reduces. -/
theorem reduced_checked {P : Nat → Rule → Bool}
    (hP : (List.range 24).all (fun i => (List.range 25).all fun j =>
      (lalrRow (25 * i + j)).all fun row =>
        (row.default.toList ++ row.reductions.map (·.2)).all fun q =>
          (rules[q]?).all (P (25 * i + j))) = true)
    {s a q : Nat} {r : Rule} (ha : lalrAction s a = some (.reduce q)) (hr : rules[q]? = some r) :
    P s r = true := by
  obtain ⟨row, hrow, hq⟩ := action_reduce ha
  obtain ⟨i, hi, -, rfl⟩ := row_place hrow
  have h₁ := List.all_eq_true.1 hP (s / 25) (List.mem_range.2 hi)
  have h₂ := List.all_eq_true.1 h₁ (s % 25) (List.mem_range.2 (Nat.mod_lt _ (by omega)))
  rw [Nat.div_add_mod, hrow] at h₂
  have h₃ := List.all_eq_true.1 h₂ q (by
    rw [List.mem_append] at hq ⊢
    exact hq.symm)
  rw [hr] at h₃
  exact h₃

theorem Asks.start {m : Mem} {expected : PlainFlavor} {mod : Str} {maps : Maps} {before : Location}
    {ts : Scanned} {fin : Location × LineCache} :
    Asks ts fin (Asking.start m expected mod maps before ts) := by
  refine ⟨fun h => ?_, fun h _ => by cases h⟩
  intro us t hpre
  have := h.shifted
  rw [hpre] at this
  have h0 : ts.length - ts.length - 0 = 0 := by omega
  have this : us ++ [t] = ts.take (ts.length - ts.length - 0) := this
  rw [h0] at this
  simp at this

theorem Asks.step {ts : Scanned} {before : Location} {fin : Location × LineCache} {q q' : Asking}
    {pre look : Scanned} {stk : List (Nat × Sym)} {segs : List Scanned}
    (hm : Locates ts fin q.p pre look stk segs) (h : Asks ts fin q) (hs : q.step before fin = some q') :
    Asks ts fin q' := by
  simp only [Asking.step, Option.map_eq_some_iff] at hs
  obtain ⟨p', hp, hq⟩ := hs
  simp only [Locating.step] at hp
  split at hp
  · rename_i d hd
    split at hp
    · rename_i hlook
      cases hp
      simp only [hlook] at hq
      subst hq
      refine ⟨fun hm' => ?_, fun _ _ => rfl⟩
      intro us t hpre
      obtain ⟨look', h'⟩ := hm.read hd hlook
      rw [hm'.shifted, ← h'.shifted] at hpre
      exact h.last hm hpre
    · rename_i e s rest hlook hst
      simp only [hlook, hst] at hq
      have htop := hm.top hst
      simp only [Drive.step, hlook, hst] at hd
      split at hp
      · rename_i s' ha
        cases hp
        simp only [ha] at hq hd
        subst hq
        obtain ⟨l, hl, rfl⟩ := Drive.make_go hd
        obtain ⟨e', hle, hc⟩ := step_shift hl
        refine ⟨fun hm' => ?_, fun _ _ => rfl⟩
        intro us t hpre
        have hsh := hm'.shifted
        rw [hpre] at hsh
        simp only [hc, Option.any_none, Bool.false_eq_true, if_false, Nat.sub_zero] at hsh
        have hlk := hm.looks
        simp only [Locating.Looks, hlook] at hlk
        rcases hlk with ⟨rfl, -, hs', -⟩ | ⟨t', rfl, hs'⟩
        · rw [hs'] at ha
          exact absurd rfl (action_shift ha)
        · have hall := hm.all
          rw [← List.append_assoc] at hall
          have hlen : ts.length - q.p.input.length = (pre ++ [(q.p.look, t', q.p.cache)]).length := by
            rw [hall, List.length_append, Nat.add_sub_cancel]
          have hsh : us ++ [t] = ts.take (ts.length - q.p.input.length) := hsh
          rw [hlen, hall, List.take_left] at hsh
          have := (List.append_inj' hsh rfl).2
          cases this
          rfl
      · rename_i i ha
        split at hp
        · rename_i r hr
          cases hp
          simp only [ha] at hq
          subst hq
          simp only [ha, hr] at hd
          rw [← htop] at ha
          have hmap := hm.onStack ha hr
          simp only [Drive.reduceBy] at hd
          split at hd
          · cases hd
          · split at hd
            · cases hd
            · obtain ⟨l, hl, rfl⟩ := Drive.make_go hd
              simp only [Lined.step] at hl
              split at hl
              · cases hl
              · cases hl
              · rename_i c hc
                cases hl
                obtain ⟨v, hstk, hlk⟩ := step_reduce hc
                refine ⟨fun hm' => ?_, fun he hcl => ?_⟩
                · intro us t hpre
                  have hsh := hm'.shifted
                  simp only [hlk] at hsh
                  rw [hsh, ← hm.shifted] at hpre
                  exact h.last hm hpre
                · rw [hstk] at he
                  cases he
                  have hb := reduced_checked bracket_checked ha hr
                  simp only [checkBracket, hcl, Bool.not_true, Bool.false_or, Bool.and_eq_true] at hb
                  obtain ⟨e', he', hce⟩ := hm.topClosed hmap hb.2
                  rw [htop] at hb
                  simp [h.fresh he' hce, hb.1]
              · cases hl
        · cases hp
      · cases hp
    · cases hp
  · cases hp

theorem Asks.reaches {m : Mem} {expected : PlainFlavor} {mod : Str} {maps : Maps} {before : Location}
    {ts : Scanned} {fin : Location × LineCache} {q : Asking}
    (hr : AskingReaches before fin (Asking.start m expected mod maps before ts) q) :
    Asks ts fin q := by
  induction hr with
  | refl => exact Asks.start
  | @step q q' hq hs ih =>
    obtain ⟨pre, look, stk, segs, hm⟩ := Locates.reaches (asking_locating hq)
    exact ih.step hm hs

/-- What may complain, and in which state. -/
def checkComplaint (s : Nat) (r : Rule) : Bool :=
  match r.action.head? with
  | some (.expect fl _) => decide (r.before = []) && decide (onlyIn r.lhs = some fl) &&
      r.rhs.head?.any Sym.solid && r.rhs.getLast?.any Sym.closed &&
      decide (r.lhs ≠ .roleAllow) && (onlyReduces s != decide (r.rhs = plainClass))
  | some (.expectAllow n _) => decide (r.before = []) && decide (r.lhs = .roleAllow) && decide (n = 1) &&
      decide (r.rhs.head? = some (.n .avType)) && r.rhs.head?.any Sym.solid &&
      r.rhs.getLast?.any Sym.closed && onlyReduces s
  | _ => true

theorem complaint_checked : (List.range 24).all (fun i => (List.range 25).all fun j =>
    (lalrRow (25 * i + j)).all fun row =>
      (row.default.toList ++ row.reductions.map (·.2)).all fun q =>
        (rules[q]?).all (checkComplaint (25 * i + j))) = true := by decide +kernel

/-- The states outside of all statements. -/
def outer : List Nat := [0, 3, 9, 10, 11, 123, 127, 131]

def checkOuter (s : Nat) (row : LalrRow) : Bool :=
  (outer.contains s || ((row.shifts ++ row.gotos).all fun x => !outer.contains x.2)) &&
    (row.gotos.all fun x => [Nt.header, .startInterface, .supportDef, .avClassDefinition].all fun y =>
      x.1 != y.code || outer.contains s) &&
    (row.gotos.all fun x => x.1 != Nt.code .roleAllow || shiftsError s)

theorem outside_checked : (List.range 24).all (fun i => (List.range 25).all fun j =>
    (lalrRow (25 * i + j)).all (checkOuter (25 * i + j))) = true := by decide +kernel

theorem row_outer {s : Nat} {row : LalrRow} (h : lalrRow s = some row) : checkOuter s row = true := by
  obtain ⟨i, hi, -, rfl⟩ := row_place h
  have h₁ := List.all_eq_true.1 outside_checked (s / 25) (List.mem_range.2 hi)
  have h₂ := List.all_eq_true.1 h₁ (s % 25) (List.mem_range.2 (Nat.mod_lt _ (by omega)))
  rw [Nat.div_add_mod, h] at h₂
  exact h₂

theorem action_shifts {s a s' : Nat} (h : lalrAction s a = some (.shift s')) :
    ∃ row, lalrRow s = some row ∧ ∃ x ∈ row.shifts, x.2 = s' := by
  simp only [lalrAction] at h
  split at h
  · cases h
  · simp only [Option.bind_eq_some_iff] at h
    obtain ⟨row, hrow, h⟩ := h
    refine ⟨row, hrow, ?_⟩
    split at h
    · rename_i x hx
      cases h
      exact ⟨x, List.mem_of_find?_eq_some hx, rfl⟩
    · split at h
      · cases h
      · cases hd : row.default <;> rw [hd] at h <;> cases h

theorem goto_row {s a s' : Nat} (h : lalrGoto s a = some s') :
    ∃ row, lalrRow s = some row ∧ ∃ x ∈ row.gotos, x.1 = a ∧ x.2 = s' := by
  simp only [lalrGoto, Option.bind_eq_some_iff, Option.map_eq_some_iff] at h
  obtain ⟨row, hrow, x, hx, rfl⟩ := h
  exact ⟨row, hrow, x, List.mem_of_find?_eq_some hx, by simpa using List.find?_some hx, rfl⟩

theorem outer_error : outer.all (fun s => !shiftsError s) = true := by decide +kernel

/-- Outside of all statements there is no statement around. -/
theorem recover_outer : ∀ {stk : List (Nat × Sym)}, Linked stk → outer.contains (topState stk) = true →
    ∀ (locs : List Location) (first : Location), recoverPlace (stk.map (·.1) ++ [0]) locs first = none
  | [], _, _, locs, first => by
    have h0 : shiftsError 0 = false := by decide +kernel
    simp only [List.map_nil, List.nil_append, recoverPlace, h0, Bool.false_eq_true, if_false]
    cases locs <;> rfl
  | (s, x) :: stk, hk, ho, locs, first => by
    have hs : shiftsError s = false := by
      have := List.all_eq_true.1 outer_error s (by simpa [topState] using ho)
      simpa using this
    simp only [List.map_cons, List.cons_append, recoverPlace, hs, Bool.false_eq_true, if_false]
    cases locs with
    | nil => rfl
    | cons l rest =>
      refine recover_outer (hk.drop (n := 1)) ?_ rest l
      show outer.contains (topState stk) = true
      have ho : outer.contains s = true := ho
      have key : ∀ {row : LalrRow}, lalrRow (topState stk) = some row →
          (∃ x ∈ row.shifts ++ row.gotos, x.2 = s) → outer.contains (topState stk) = true := by
        intro row hrow ⟨x, hx, hxs⟩
        have hc := row_outer hrow
        simp only [checkOuter, Bool.and_eq_true, Bool.or_eq_true] at hc
        rcases hc.1.1 with h | h
        · exact h
        · have := List.all_eq_true.1 h x hx
          rw [hxs, ho] at this
          cases this
      cases hk with
      | tok _ ha =>
        obtain ⟨row, hrow, x, hx, hxs⟩ := action_shifts ha
        exact key hrow ⟨x, List.mem_append_left _ hx, hxs⟩
      | nt _ hg =>
        obtain ⟨row, hrow, x, hx, -, hxs⟩ := goto_row hg
        exact key hrow ⟨x, List.mem_append_right _ hx, hxs⟩

theorem goto_outer {s s' : Nat} {x : Nt} {fl : PlainFlavor} (h : lalrGoto s x.code = some s')
    (hx : onlyIn x = some fl) : outer.contains s = true := by
  obtain ⟨row, hrow, y, hy, hyx, -⟩ := goto_row h
  have hc := row_outer hrow
  simp only [checkOuter, Bool.and_eq_true] at hc
  have := List.all_eq_true.1 hc.1.2 y hy
  have hm : x ∈ [Nt.header, .startInterface, .supportDef, .avClassDefinition] := by
    cases x <;> first | (simp only [onlyIn] at hx; cases hx; done) | decide
  have := List.all_eq_true.1 this x hm
  simpa [hyx] using this

theorem goto_roleAllow {s s' : Nat} (h : lalrGoto s (Nt.code .roleAllow) = some s') :
    shiftsError s = true := by
  obtain ⟨row, hrow, y, hy, hyx, -⟩ := goto_row h
  have hc := row_outer hrow
  simp only [checkOuter, Bool.and_eq_true] at hc
  have := List.all_eq_true.1 hc.2 y hy
  simpa [hyx] using this

/-- Why `yyparse` gives up. -/
theorem Locates.rejects {ts : Scanned} {fin : Location × LineCache} {p : Locating} {pre look : Scanned}
    {stk : List (Nat × Sym)} {segs : List Scanned} (h : Locates ts fin p pre look stk segs)
    (hs : p.d.step = .ok .reject) :
    ∃ e s rest, p.d.l.c.look = some e ∧ p.d.states = s :: rest ∧ (lalrAction s e.sym.code = none ∨
      ∃ i r l, lalrAction s e.sym.code = some (.reduce i) ∧ rules[i]? = some r ∧
        p.d.l.step (.reduce r) = some (.ok (.error l))) := by
  simp only [Drive.step] at hs
  split at hs
  · rename_i hlook
    have key : ∀ {n t states rest}, p.d.make (.read n t) states rest ≠ .ok .reject := by
      intro n t states rest hm
      simp only [Drive.make, Lined.step, Config.step, hlook] at hm
      cases hm
    split at hs
    · exact absurd hs key
    · exact absurd hs key
  · rename_i e hlook
    have hss := h.states
    split at hs
    · rename_i hst
      rw [hss] at hst
      simp at hst
    · rename_i s rest hst
      have htop := h.top hst
      refine ⟨e, s, rest, hlook, hst, ?_⟩
      split at hs
      · rename_i ha
        exact .inl ha
      · cases hs
      · simp only [Drive.make, Lined.step, Config.step, hlook] at hs
        cases hs
      · rename_i i ha
        obtain ⟨r, hr⟩ := action_rule ha
        have ha' := ha
        rw [← htop] at ha'
        obtain ⟨hfit, hlen, s', hg⟩ := h.linked.fits h.stack ha' hr
        rw [hr] at hs
        simp only [Drive.reduceBy] at hs
        have hds : p.d.states.drop r.rhs.length =
            topState (stk.drop r.rhs.length) :: (stk.map Prod.fst ++ [0]).drop (r.rhs.length + 1) := by
          rw [hss, ← List.drop_drop, List.drop_append_of_le_length (by simpa using hlen),
            ← List.map_drop]
          cases stk.drop r.rhs.length <;> rfl
        rw [hds] at hs
        simp only [hg] at hs
        refine .inr ⟨i, r, ?_⟩
        simp only [Drive.make] at hs
        split at hs
        · rename_i hnone
          simp only [Lined.step, Config.step, hfit, if_true] at hnone
          split at hnone
          · rename_i hc
            cases hc
          all_goals cases hnone
        · cases hs
        · cases hs
        · rename_i l hl
          exact ⟨l, ha, hr, hl⟩

/-- The word an access vector rule begins with. -/
theorem Held.av {es : List Entry} {locs : List Location} {segs : List Scanned} (h : Held es locs segs) :
    ∀ {n : Nat} {e : Entry}, (es.take n).getLast? = some e → e.sym = .n .avType →
      ∃ k fl rest, Scanned.kinds (segs.take n).reverse.flatten = .kw k :: rest ∧ avWord k = some fl ∧
        e.val = .av fl := by
  induction h with
  | nil =>
    intro n e he
    simp at he
  | @cons es locs segs e' l seg h hcl ha ih =>
    intro n e he hsym
    cases n with
    | zero => cases he
    | succ n =>
      rw [List.take_succ_cons] at he
      rw [List.take_succ_cons, List.reverse_cons, List.flatten_append, kinds_append,
        List.flatten_singleton]
      cases hes : es.take n with
      | nil =>
        rw [hes] at he
        cases he
        obtain ⟨k, fl, hk, hw, hv⟩ := ha hsym
        have hsegs : segs.take n = [] := by
          cases n with
          | zero => rfl
          | succ n =>
            cases h with
            | nil => rfl
            | cons _ _ _ => cases hes
        rw [hsegs, hk]
        exact ⟨k, fl, [], rfl, hw, hv⟩
      | cons y ys =>
        rw [hes, List.getLast?_cons_cons, ← hes] at he
        obtain ⟨k, fl, rest, hk, hw, hv⟩ := ih he hsym
        rw [hk]
        exact ⟨k, fl, _, rfl, hw, hv⟩

end Lr
end Selint
