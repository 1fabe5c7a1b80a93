import Verif.Lemmas.LalrComplete
import Verif.Spec.LrLines
/-!
# What `yyparse` accepts
-/

namespace Selint
namespace Lr
open Spec

/-- Only the file leads to the last state, and only from the first one; nothing leads back to the
first one. -/
theorem final_checked : (List.range 24).all (fun i => (lalrRows[i]?.getD []).all fun row =>
      row.shifts.all (fun x => x.2 != lalrFinal && x.2 != 0) &&
      row.gotos.all (fun x => x.2 != 0 &&
        (x.2 != lalrFinal || x.1 == Nt.code .selinuxFile))) = true ∧
    (List.range 24).all (fun i => (List.range 25).all fun j => (i == 0 && j == 0) ||
      ((lalrRow (25 * i + j)).all fun row => row.gotos.all (fun x => x.2 != lalrFinal))) = true := by
  decide +kernel

theorem lalrRows_length : lalrRows.length = 24 := by decide +kernel

theorem row_place {s : Nat} {row : LalrRow} (h : lalrRow s = some row) :
    ∃ i, i < 24 ∧ row ∈ lalrRows[i]?.getD [] ∧ i = s / 25 := by
  simp only [lalrRow, Option.bind_eq_some_iff] at h
  obtain ⟨rows, h₁, h₂⟩ := h
  refine ⟨s / 25, ?_, ?_, rfl⟩
  · have := (List.getElem?_eq_some_iff.1 h₁).1
    rw [lalrRows_length] at this
    exact this
  · rw [h₁]
    exact List.mem_of_getElem? h₂

theorem shift_target {s a s' : Nat} (h : lalrAction s a = some (.shift s')) :
    s' ≠ lalrFinal ∧ s' ≠ 0 := by
  simp only [lalrAction] at h
  split at h
  · cases h
  · simp only [Option.bind_eq_some_iff] at h
    obtain ⟨row, hrow, h⟩ := h
    split at h
    · rename_i x hx
      cases h
      obtain ⟨i, hi, hm, -⟩ := row_place hrow
      have := List.all_eq_true.1 (List.all_eq_true.1 final_checked.1 i (List.mem_range.2 hi)) row hm
      simp only [Bool.and_eq_true, List.all_eq_true, bne_iff_ne] at this
      exact this.1 x (List.mem_of_find?_eq_some hx)
    · split at h
      · cases h
      · simp only [Option.map_eq_some_iff] at h
        obtain ⟨_, _, h⟩ := h
        cases h

theorem goto_target {s a s' : Nat} (h : lalrGoto s a = some s') :
    s' ≠ 0 ∧ (s' = lalrFinal → s = 0 ∧ a = Nt.code .selinuxFile) := by
  simp only [lalrGoto, Option.bind_eq_some_iff, Option.map_eq_some_iff] at h
  obtain ⟨row, hrow, x, hx, rfl⟩ := h
  have hm := List.mem_of_find?_eq_some hx
  have ha : x.1 = a := by simpa using List.find?_some hx
  obtain ⟨i, hi, hrm, hii⟩ := row_place hrow
  have h₁ := List.all_eq_true.1 (List.all_eq_true.1 final_checked.1 i (List.mem_range.2 hi)) row hrm
  simp only [Bool.and_eq_true, List.all_eq_true, bne_iff_ne, Bool.or_eq_true, beq_iff_eq] at h₁
  obtain ⟨h₂, h₃⟩ := h₁.2 x hm
  refine ⟨h₂, fun hf => ⟨?_, ?_⟩⟩
  · have h₄ := List.all_eq_true.1 (List.all_eq_true.1 final_checked.2 i (List.mem_range.2 hi)) (s % 25)
      (List.mem_range.2 (Nat.mod_lt _ (by omega)))
    have e : 25 * i + s % 25 = s := by omega
    rw [e, hrow] at h₄
    simp only [Option.all_some, Bool.or_eq_true, Bool.and_eq_true, beq_iff_eq, List.all_eq_true,
      bne_iff_ne] at h₄
    rcases h₄ with h₄ | h₄
    · omega
    · exact absurd hf (h₄ x hm)
  · rcases h₃ with h₃ | h₃
    · exact absurd hf h₃
    · rw [← ha, h₃]

theorem fileCode_iff {x : Nt} : x.code = Nt.code .selinuxFile ↔ x = .selinuxFile := by
  cases x <;> simp [Nt.code]

theorem eofCode_iff {t : Option Token} : (tokenSym t).code = Term.code .eof ↔ t = none := by
  cases t with
  | none => exact ⟨fun _ => rfl, fun _ => rfl⟩
  | some t =>
    refine ⟨fun h => ?_, nofun⟩
    cases t with
    | kw k => cases k <;> cases h
    | p x => cases x <;> cases h
    | _ => cases h

/-- Every state was reached with its symbol. -/
inductive Linked : List (Nat × Sym) → Prop
  | nil : Linked []
  | tok {s : Nat} {x : Term} {stk : List (Nat × Sym)} : Linked stk →
      lalrAction (topState stk) x.code = some (.shift s) → Linked ((s, .t x) :: stk)
  | nt {s : Nat} {x : Nt} {stk : List (Nat × Sym)} : Linked stk →
      lalrGoto (topState stk) x.code = some s → Linked ((s, .n x) :: stk)

theorem Linked.drop {n : Nat} : ∀ {stk : List (Nat × Sym)}, Linked stk → Linked (stk.drop n) := by
  induction n with
  | zero => intro stk h; exact h
  | succ n ih =>
    intro stk h
    cases h with
    | nil => exact .nil
    | tok h _ => exact ih h
    | nt h _ => exact ih h

theorem Linked.first {stk : List (Nat × Sym)} (h : Linked stk) (ht : topState stk = 0) : stk = [] := by
  cases h with
  | nil => rfl
  | tok _ h => exact absurd ht (shift_target h).2
  | nt _ h => exact absurd ht (goto_target h).1

theorem Linked.final {stk : List (Nat × Sym)} (h : Linked stk) (ht : topState stk = lalrFinal) :
    stk = [(lalrFinal, .n .selinuxFile)] := by
  cases h with
  | nil => cases ht
  | tok _ h => exact absurd ht (shift_target h).1
  | @nt s x stk h hg =>
    have ht : s = lalrFinal := ht
    obtain ⟨h₀, hx⟩ := (goto_target hg).2 ht
    rw [fileCode_iff] at hx
    rw [ht, hx, h.first h₀]

/-- What is true of `yyparse` at any time: it makes moves of the machine, and the tokens it has read
and those that are left are those of the file. -/
structure Follows (l₀ : Lined) (ts : Located) (d : Drive) : Prop where
  moves : ∃ us, LinedReaches l₀ us d.l ∧ us ++ d.input = ts
  stack : ∃ stk, Linked stk ∧ d.states = stk.map (·.1) ++ [0] ∧
    d.l.c.stack.map Entry.sym = stk.map (·.2)
  look : ∀ e, d.l.c.look = some e → (∃ x, e.sym = .t x) ∧
    (e.sym.code = Term.code .eof → e = ⟨.t .eof, .none⟩ ∧ d.input = [])

theorem Drive.make_go {d d' : Drive} {mv : LinedMove} {states : List Nat} {input : Located}
    (h : d.make mv states input = .ok (.go d')) :
    ∃ l, d.l.step mv = some (.ok (.go l)) ∧ d' = ⟨l, states, input⟩ := by
  simp only [Drive.make] at h
  split at h
  · cases h
  · cases h
  · rename_i l hl
    cases h
    exact ⟨l, hl, rfl⟩
  · cases h

theorem step_read {l l' : Lined} {n : Nat} {t : Option Token}
    (h : l.step (.read n t) = some (.ok (.go l'))) : l.c.look = none ∧ l'.c = readToken l.c t := by
  simp only [Lined.step, Config.step] at h
  cases hl : l.c.look with
  | some e => rw [hl] at h; cases h
  | none =>
    rw [hl] at h
    cases h
    exact ⟨rfl, rfl⟩

theorem step_shift {l l' : Lined} (h : l.step .shift = some (.ok (.go l'))) :
    ∃ e, l.c.look = some e ∧ l'.c = { l.c with stack := e :: l.c.stack, look := none } := by
  simp only [Lined.step, Config.step] at h
  cases hl : l.c.look with
  | none => rw [hl] at h; cases h
  | some e =>
    rw [hl] at h
    cases h
    exact ⟨e, rfl, rfl⟩

theorem step_reduce {c c' : Config} {r : Rule} {line : Nat}
    (h : c.step (.reduce r line) = some (.ok (.go c'))) :
    ∃ v, c'.stack = ⟨.n r.lhs, v⟩ :: c.stack.drop r.rhs.length ∧ c'.look = c.look := by
  simp only [Config.step] at h
  split at h
  · simp only [Config.reduce, Option.some.injEq] at h
    obtain ⟨x, -, h⟩ := Res.bind_eq_ok h
    cases x with
    | go s =>
      cases h
      exact ⟨_, rfl, rfl⟩
    | error s => cases h
  · cases h

theorem Follows.read {l₀ : Lined} {ts : Located} {d d' : Drive} (h : Follows l₀ ts d) {n : Nat}
    {t : Option Token} {rest : Located}
    (hm : d.make (.read n t) d.states rest = .ok (.go d'))
    (ht : d.input = t.toList.map (n, ·) ++ rest) (hn : t = none → rest = []) :
    Follows l₀ ts d' := by
  obtain ⟨l, hl, rfl⟩ := Drive.make_go hm
  obtain ⟨us, hu, hus⟩ := h.moves
  obtain ⟨stk, hk, hs, he⟩ := h.stack
  obtain ⟨h₁, h₂⟩ := step_read hl
  obtain ⟨v, h₃, h₄⟩ := readToken_look d.l.c t
  refine ⟨⟨_, hu.move hl, ?_⟩, ⟨stk, hk, hs, ?_⟩, fun e hle => ?_⟩
  · rw [← hus, ht, List.append_assoc]
    cases t <;> rfl
  · show l.c.stack.map _ = _
    rw [h₂, h₄]
    exact he
  · have hle : l.c.look = some e := hle
    rw [h₂, h₃] at hle
    cases hle
    refine ⟨?_, fun hc => ?_⟩
    · cases t with
      | none => exact ⟨_, rfl⟩
      | some t => cases t <;> exact ⟨_, rfl⟩
    · have ht := eofCode_iff.1 hc
      subst ht
      rw [show (readToken d.l.c none).look = some ⟨.t .eof, .none⟩ from rfl] at h₃
      cases h₃
      exact ⟨rfl, hn rfl⟩

theorem Follows.step {l₀ : Lined} {ts : Located} {d d' : Drive} (h : Follows l₀ ts d)
    (hs : d.step = .ok (.go d')) : Follows l₀ ts d' := by
  simp only [Drive.step] at hs
  split at hs
  · split at hs
    · rename_i hin
      exact h.read hs (by simp [hin]) (fun _ => rfl)
    · rename_i hin
      exact h.read hs (by simp [hin]) nofun
  · rename_i e hlook
    split at hs
    · cases hs
    · rename_i s rest hst
      obtain ⟨us, hu, hus⟩ := h.moves
      obtain ⟨stk, hk, hss, he⟩ := h.stack
      have htop : topState stk = s := by
        rw [hss] at hst
        cases stk with
        | nil => exact (List.cons.inj hst).1
        | cons x stk => exact (List.cons.inj hst).1
      split at hs
      · cases hs
      · cases hs
      · rename_i s' ha
        obtain ⟨l, hl, rfl⟩ := Drive.make_go hs
        obtain ⟨e', hle, hc⟩ := step_shift hl
        rw [hlook] at hle
        cases hle
        obtain ⟨⟨x, hx⟩, -⟩ := h.look e hlook
        refine ⟨⟨_, hu.move hl, by simpa [placedTokenOf] using hus⟩,
          ⟨(s', .t x) :: stk, ?_, ?_, ?_⟩, ?_⟩
        · refine .tok hk ?_
          rw [htop, ← ha, hx]
          rfl
        · simp [hss]
        · show l.c.stack.map _ = _
          rw [hc]
          simp [he, hx]
        · intro e' he'
          have he' : l.c.look = some e' := he'
          rw [hc] at he'
          cases he'
      · rename_i p ha
        split at hs
        · cases hs
        · rename_i r hr
          simp only [Drive.reduceBy] at hs
          split at hs
          · cases hs
          · rename_i t rest' hdrop
            split at hs
            · cases hs
            · rename_i s' hg
              obtain ⟨l, hl, rfl⟩ := Drive.make_go hs
              have hstep := hl
              simp only [Lined.step] at hl
              split at hl
              · cases hl
              · cases hl
              · rename_i c hc
                cases hl
                obtain ⟨v, hstk, hlk⟩ := step_reduce hc
                have hds : d.states.drop r.rhs.length = (stk.drop r.rhs.length).map (·.1) ++ [0] := by
                  have hlen : r.rhs.length ≤ stk.length := by
                    have h₁ : r.rhs.length < d.states.length := by
                      have := congrArg List.length hdrop
                      simp at this
                      omega
                    rw [hss] at h₁
                    simp at h₁
                    omega
                  rw [hss, List.drop_append_of_le_length (by simpa using hlen), List.map_drop]
                refine ⟨⟨_, hu.move hstep, by simpa [placedTokenOf] using hus⟩,
                  ⟨(s', .n r.lhs) :: stk.drop r.rhs.length, .nt hk.drop ?_, ?_, ?_⟩, ?_⟩
                · rw [hds] at hdrop
                  have : topState (stk.drop r.rhs.length) = t := by
                    cases hd : stk.drop r.rhs.length with
                    | nil => rw [hd] at hdrop; exact (List.cons.inj hdrop).1
                    | cons x xs => rw [hd] at hdrop; exact (List.cons.inj hdrop).1
                  rw [this]
                  exact hg
                · show s' :: t :: rest' = _
                  rw [← hdrop, hds]
                  rfl
                · show c.stack.map _ = _
                  rw [hstk]
                  simp [he, List.map_drop]
                · intro e' he'
                  have he' : c.look = some e' := he'
                  rw [hlk] at he'
                  exact h.look e' he'
              · cases hl

/-- If `yyparse` accepts, the machine has accepted the tokens. -/
theorem Follows.accept {l₀ : Lined} {ts : Located} {d : Drive} (h : Follows l₀ ts d)
    (hs : d.step = .ok .accept) :
    LinedReaches l₀ ts d.l ∧ ∃ v, entries d.l.c = [⟨.t .eof, .none⟩, ⟨.n .selinuxFile, v⟩] := by
  have hmake : ∀ {mv states input}, d.make mv states input ≠ .ok .accept := by
    intro mv states input hm
    simp only [Drive.make] at hm
    split at hm <;> cases hm
  simp only [Drive.step] at hs
  split at hs
  · split at hs
    · exact absurd hs hmake
    · exact absurd hs hmake
  · rename_i e hlook
    split at hs
    · cases hs
    · rename_i s rest hst
      obtain ⟨us, hu, hus⟩ := h.moves
      obtain ⟨stk, hk, hss, he⟩ := h.stack
      split at hs
      · cases hs
      · rename_i ha
        have hf : s = lalrFinal ∧ e.sym.code = Term.code .eof := by
          simp only [lalrAction] at ha
          split at ha
          · rename_i hc
            simpa using hc
          · simp only [Option.bind_eq_some_iff] at ha
            obtain ⟨row, hrow, ha⟩ := ha
            split at ha
            · cases ha
            · split at ha
              · cases ha
              · simp only [Option.map_eq_some_iff] at ha
                obtain ⟨_, _, ha⟩ := ha
                cases ha
        obtain ⟨rfl, hcode⟩ := hf
        obtain ⟨-, hlk⟩ := h.look e hlook
        obtain ⟨rfl, hin⟩ := hlk hcode
        have htop : topState stk = lalrFinal := by
          rw [hss] at hst
          cases stk with
          | nil => exact (List.cons.inj hst).1
          | cons x stk => exact (List.cons.inj hst).1
        have := hk.final htop
        subst this
        rw [hin, List.append_nil] at hus
        subst hus
        refine ⟨hu, ?_⟩
        simp only [List.map_cons, List.map_nil, List.map_eq_cons_iff, List.map_eq_nil_iff] at he
        obtain ⟨⟨sym, v⟩, _, hes, rfl, rfl⟩ := he
        exact ⟨v, by simp only [entries, hlook, hes]; rfl⟩
      · exact absurd hs hmake
      · split at hs
        · cases hs
        · simp only [Drive.reduceBy] at hs
          split at hs
          · cases hs
          · split at hs
            · cases hs
            · exact absurd hs hmake

theorem Follows.reaches {l₀ : Lined} {ts : Located} {d d' : Drive} (h : Follows l₀ ts d)
    (hr : DriveReaches d d') : Follows l₀ ts d' := by
  induction hr with
  | refl => exact h
  | step _ hs ih => exact ih.step hs

theorem Follows.start {m : Mem} {expected : PlainFlavor} {mod : Str} {maps : Maps} {ts : Located} :
    Follows (Lined.start m expected mod maps) ts (Drive.start m expected mod maps ts) :=
  ⟨⟨[], .refl, rfl⟩, ⟨[], .nil, rfl, rfl⟩, nofun⟩

end Lr
end Selint
