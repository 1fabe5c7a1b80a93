import Verif.Lemmas.Dispatch
import Verif.Props.Selection
import Verif.Props.Run
import Verif.Props.Runner
/-! # C66: which results appear in the output -/

namespace Selint
open Spec

/-- **C66 (ids).** Whatever the node, the tables and the state: a check of the documented table
returns results with its own id, or the internal error F-002. -/
theorem C66_ids (row : CheckRow) (hrow : row ∈ checkTable) (m : Maps) (data : CheckData) (node : Loc)
    (s s' : Statics) (r : CheckResult) (h : row.fn.run m data node s = .ok (s', some r)) :
    (r.severity = row.sev ∧ r.checkId = row.num) ∨ (r.severity = 'F' ∧ r.checkId = 2) := by
  have key : ∀ row ∈ checkTable, fnId row.fn = (row.sev, row.num) := by
    simp only [checkTable, List.forall_mem_cons, List.not_mem_nil, false_imp_iff, implies_true, fnId,
      and_self]
  have := CheckFn.run_hasId h
  rwa [key row hrow] at this

/-! ## The whole run -/

/-- The hooks are hooks of the table that are at or above the level, enabled and applicable. -/
def HooksFrom (level : Char) (c : EnableConf) (m : Maps) (ck : Checks CheckFn) : Prop :=
  ∀ fl, ∀ h ∈ ck fl, ∃ row ∈ checkTable, h.fn = row.fn ∧ atLeast row.sev level = true ∧
    isCheckEnabled row.id c = true ∧ row.needs m = true

/-- A finding that a run with this configuration may print. -/
def Spec.MayPrint (level : Char) (c : EnableConf) (m : Maps) (f : Finding) : Prop :=
  (f.result.severity = 'F' ∧ f.result.checkId = 2) ∨
  ∃ row ∈ checkTable, f.result.severity = row.sev ∧ f.result.checkId = row.num ∧
    atLeast row.sev level = true ∧ isCheckEnabled row.id c = true ∧ row.needs m = true

theorem hooksFrom_registered {level : Char} {c : EnableConf} {m : Maps} {ck : Checks CheckFn}
    (h : registerChecks level c m = some ck) : HooksFrom level c m ck := by
  intro fl hk hm
  rw [C03_registered level c m ck h fl] at hm
  simp only [hooksOn, List.mem_map, List.mem_filter, Bool.and_eq_true, decide_eq_true_eq] at hm
  obtain ⟨row, ⟨h1, ⟨⟨h2, h3⟩, h4⟩, _⟩, rfl⟩ := hm
  exact ⟨row, h1, rfl, h2, h3, h4⟩

theorem execute_mem {F σ : Type} {exec : Exec F σ} {data : CheckData} {invs : List (Invocation F)} {st : σ}
    {v : Invocation F} {r : Option CheckResult} (h : (v, r) ∈ (execute exec data invs st).2) :
    v ∈ invs ∧ ∃ st', (exec v.fn data v.node st').2 = r := by
  induction invs generalizing st with
  | nil => simp [execute] at h
  | cons i is ih =>
    simp only [execute, List.mem_cons, Prod.mk.injEq] at h
    rcases h with ⟨rfl, rfl⟩ | h
    · exact ⟨.head _, _, rfl⟩
    · obtain ⟨h1, h2⟩ := ih h
      exact ⟨.tail _ h1, h2⟩

theorem selintExec_some {m : Maps} {fn : CheckFn} {data : CheckData} {node : Loc} {st : Res Statics}
    {r : CheckResult} (h : (selintExec m fn data node st).2 = some r) :
    ∃ s s', fn.run m data node s = .ok (s', some r) := by
  unfold selintExec at h
  cases st with
  | ub => cases h
  | ok s =>
    simp only at h
    cases hr : fn.run m data node s with
    | ub => rw [hr] at h; cases h
    | ok x => obtain ⟨s', x⟩ := x; rw [hr] at h; simp only at h; subst h; exact ⟨s, s', hr⟩

/-- What one file adds to the output. -/
theorem file_output {level : Char} {c : EnableConf} {m₀ m : Maps} {ck : Checks CheckFn}
    (hck : HooksFrom level c m₀ ck) (suppress : Bool) (data : CheckData) (ts : List Tree)
    (s : RunState (Res Statics)) :
    HooksFrom level c m₀ (runChecksOnOneFile (selintExec m) suppress ck data (Loc.ofForest ts) s).1 ∧
    ∀ f ∈ (runChecksOnOneFile (selintExec m) suppress ck data (Loc.ofForest ts) s).2.out,
      f ∈ s.out ∨ (suppress = false ∧ f.filename = data.filename ∧ MayPrint level c m₀ f) := by
  obtain ⟨rs, h1, h2, h3, h4⟩ := C06_counters (selintExec m) suppress ck data ts s
  obtain ⟨visits, -, -, -, h5⟩ := C05_each_check_once_in_order (selintExec m) ck data ts s
  constructor
  · intro fl hk hm
    obtain ⟨i, hi⟩ := List.mem_iff_getElem?.1 hm
    rw [h2 fl i] at hi
    cases hg : (ck fl)[i]? with
    | none => rw [hg] at hi; cases hi
    | some hk' =>
      rw [hg] at hi; cases hi
      obtain ⟨row, h⟩ := hck fl hk' (List.mem_iff_getElem?.2 ⟨i, hg⟩)
      exact ⟨row, h⟩
  · intro f hf
    rw [h4] at hf
    cases suppress with
    | true => exact .inl hf
    | false =>
      simp only [Bool.false_eq_true, if_false, ← h1] at hf
      rw [h5, List.mem_append] at hf
      refine hf.imp id fun hf => ⟨rfl, ?_⟩
      simp only [findings, List.mem_filterMap, Option.map_eq_some_iff] at hf
      obtain ⟨⟨v, r⟩, hv, res, e, rfl⟩ := hf
      simp only at e; subst e
      obtain ⟨hv, st, hst⟩ := execute_mem hv
      obtain ⟨s₁, s₂, hrun⟩ := selintExec_some hst
      obtain ⟨l, -, hl⟩ := List.mem_flatMap.1 hv
      simp only [invocationsAt, List.mem_map, List.mem_filter] at hl
      obtain ⟨⟨hk, i⟩, ⟨hm, -⟩, rfl⟩ := hl
      have hm' : hk ∈ ck l.flavor := by
        rw [List.mem_zipIdx_iff_getElem?] at hm
        exact List.mem_iff_getElem?.2 ⟨i, hm⟩
      obtain ⟨row, hrow, hfn, hrest⟩ := hck _ hk hm'
      simp only at hrun
      rw [hfn] at hrun
      rcases C66_ids row hrow m data l s₁ s₂ res hrun with h | h
      · exact ⟨rfl, .inr ⟨row, hrow, h.1, h.2, hrest⟩⟩
      · exact ⟨rfl, .inl h⟩

section
variable (prog : Program CheckFn (Res Statics)) (hexec : prog.exec = selintExec)

theorem parseAll_keeps {flavor : NodeFlavor} {n : Nat} {p : Option Nat}
    {s s' : RunnerState CheckFn (Res Statics)} {e : SelintError}
    (h : parseAll prog flavor n p s = some (e, s')) : s'.ck = s.ck ∧ s'.rs = s.rs := by
  induction n generalizing p s with
  | zero => cases p <;> simp [parseAll] at h; obtain ⟨_, rfl⟩ := h; exact ⟨rfl, rfl⟩
  | succ n ih =>
    cases p with
    | none => simp [parseAll] at h; obtain ⟨_, rfl⟩ := h; exact ⟨rfl, rfl⟩
    | some a =>
      simp only [parseAll] at h
      split at h
      · cases h
      · split at h
        · cases h; exact ⟨rfl, rfl⟩
        · exact (ih h : s'.ck = (parseCell prog flavor a _ s).ck ∧ s'.rs = (parseCell prog flavor a _ s).rs)

theorem markSpliced_keeps {ifs cifs : FileList} {s s' : RunnerState CheckFn (Res Statics)} {e : SelintError}
    (h : markSpliced ifs cifs s = some (e, s')) : s'.ck = s.ck ∧ s'.rs = s.rs := by
  unfold markSpliced at h
  simp only at h
  split at h
  · cases h
  · split at h
    · cases h
    · cases h; exact ⟨rfl, rfl⟩

include hexec in
theorem runAllChecks_output {level : Char} {c : EnableConf} {m₀ : Maps} {flavor : FileFlavor} {n : Nat}
    {p : Option Nat} {s s' : RunnerState CheckFn (Res Statics)} {e : SelintError}
    (h : runAllChecks prog flavor n p s = some (e, s')) (hck : HooksFrom level c m₀ s.ck)
    (ho : ∀ f ∈ s.rs.out, MayPrint level c m₀ f) :
    HooksFrom level c m₀ s'.ck ∧ ∀ f ∈ s'.rs.out, MayPrint level c m₀ f := by
  induction n generalizing p s with
  | zero => cases p <;> simp [runAllChecks] at h; obtain ⟨_, rfl⟩ := h; exact ⟨hck, ho⟩
  | succ n ih =>
    cases p with
    | none => simp [runAllChecks] at h; obtain ⟨_, rfl⟩ := h; exact ⟨hck, ho⟩
    | some a =>
      simp only [runAllChecks] at h
      split at h
      · cases h
      · rename_i cell _
        have hf := file_output (m := s.maps) hck prog.suppress (checkDataFor prog flavor cell.filename) cell.ast s.rs
        refine ih h ?_ ?_
        · simp only [checkCell, hexec]; exact hf.1
        · intro f hm
          simp only [checkCell, hexec] at hm
          rcases hf.2 f hm with h | h
          · exact ho f h
          · exact h.2.2

theorem andThen_some {F σ : Type} {r : Option (SelintError × RunnerState F σ)}
    {f : RunnerState F σ → Option (SelintError × RunnerState F σ)} {x : SelintError × RunnerState F σ}
    (h : andThen r f = some x) : r = some x ∨ ∃ s, r = some (.success, s) ∧ f s = some x := by
  unfold andThen at h
  split at h
  · cases h
  · exact .inr ⟨_, rfl, h⟩
  · exact .inl h

include hexec in
/-- **C66 (output).** Whatever the files: everything a run prints is an internal error F-002 or
the finding of a check that is at or above the chosen level, enabled, and has the tables it
needs. -/
theorem C66_output {level : Char} {c : EnableConf} {m₀ : Maps} (ls : Lists)
    (s : RunnerState CheckFn (Res Statics)) (hck : registerChecks level c m₀ = some s.ck)
    (hout : s.rs.out = []) {e : SelintError} {s' : RunnerState CheckFn (Res Statics)}
    (h : runAnalysis prog ls s = some (e, s')) : ∀ f ∈ s'.rs.out, MayPrint level c m₀ f := by
  let P : RunnerState CheckFn (Res Statics) → Prop := fun s =>
    HooksFrom level c m₀ s.ck ∧ ∀ f ∈ s.rs.out, MayPrint level c m₀ f
  have hP : P s := ⟨hooksFrom_registered hck, by simp [hout]⟩
  have hparse : ∀ {fl n p s s' e}, parseAll prog fl n p s = some (e, s') → P s → P s' := by
    intro fl n p s s' e h hp
    obtain ⟨h1, h2⟩ := parseAll_keeps prog h
    show HooksFrom level c m₀ s'.ck ∧ ∀ f ∈ s'.rs.out, MayPrint level c m₀ f
    rw [h1, h2]; exact hp
  have hmark : ∀ {i ci s s' e}, markSpliced i ci s = some (e, s') → P s → P s' := by
    intro i ci s s' e h hp
    obtain ⟨h1, h2⟩ := markSpliced_keeps h
    show HooksFrom level c m₀ s'.ck ∧ ∀ f ∈ s'.rs.out, MayPrint level c m₀ f
    rw [h1, h2]; exact hp
  have hrun : ∀ {fl n p s s' e}, runAllChecks prog fl n p s = some (e, s') → P s → P s' := by
    intro fl n p s s' e h hp
    exact runAllChecks_output prog hexec h hp.1 hp.2
  unfold runAnalysis at h
  simp only [Option.map_eq_some_iff, Prod.exists] at h
  obtain ⟨e₁, s₁, h, h'⟩ := h
  have hs' : s'.rs = s₁.rs := by cases h'; rfl
  rw [hs']
  suffices P s₁ from this.2
  have step : ∀ {r : Option (SelintError × RunnerState CheckFn (Res Statics))} {f},
      andThen r f = some (e₁, s₁) → (∀ e s, r = some (e, s) → P s) →
      (∀ s, P s → f s = some (e₁, s₁) → P s₁) → P s₁ := by
    intro r f h hr hf
    rcases andThen_some h with h | ⟨s, h, h2⟩
    · exact hr _ _ h
    · exact hf s (hr _ _ h) h2
  refine step h (fun _ _ h => hparse h hP) fun s hP h => ?_
  refine step h (fun _ _ h => hparse h hP) fun s hP h => ?_
  refine step h (fun _ _ h => hmark h hP) fun s hP h => ?_
  refine step h (fun _ _ h => hparse h hP) fun s hP h => ?_
  refine step h (fun _ _ h => hparse h hP) fun s hP h => ?_
  refine step h (fun _ _ h => hparse h hP) fun s hP h => ?_
  refine step h (fun _ _ h => hrun h hP) fun s hP h => ?_
  refine step h (fun _ _ h => hrun h hP) fun s hP h => ?_
  exact hrun h hP

end

/-! ## A run with findings -/

/-- `foo.te` with a header and an empty optional block. -/
def printProgram : Program CheckFn (Res Statics) where
  parse := fun _ _ m => ([.mk ⟨.plain .teFile none, none, 0⟩ [], .mk ⟨.header ⟨.bare, cs!"foo"⟩, none, 1⟩ [],
    .mk ⟨.plain .optionalPolicy none, none, 2⟩ [.mk ⟨.plain .startBlock none, none, 2⟩ []]], m)
  parseFc := fun _ m => ([], m)
  exec := selintExec
  suppress := false
  config := ⟨.ref, [], false, false, []⟩

/-- The hooks of level S, with S-006 disabled on the command line if `off`. -/
def printHooks (off : Bool) : Checks CheckFn :=
  (registerChecks 'S' ⟨[], [], [], if off then [cs!"S-006"] else [], false⟩ {}).getD .empty

/-- The state before the run. -/
def printState (off : Bool) : RunnerState CheckFn (Res Statics) :=
  ⟨[⟨cs!"foo.te", [], none⟩], {}, printHooks off, ⟨false, .ok .init, []⟩, []⟩

/-- The findings of the run. -/
def printOutput (off : Bool) : List (Nat × Char × Nat) :=
  match runAnalysis printProgram ⟨⟨some 0, some 0⟩, ⟨none, none⟩, ⟨none, none⟩, ⟨none, none⟩, ⟨none, none⟩⟩
      (printState off) with
  | none => []
  | some (_, s) => s.rs.out.map fun f => (f.lineno, f.result.severity, f.result.checkId)

/-- C66 is about something: the run prints S-006 and E-009, without S-006 only E-009. -/
example : printOutput false = [(1, 'S', 6), (2, 'E', 9)] ∧ printOutput true = [(2, 'E', 9)] ∧
    (∀ off, registerChecks 'S' ⟨[], [], [], if off then [cs!"S-006"] else [], false⟩ {} =
      some (printState off).ck) :=
  ⟨by with_unfolding_all rfl, by with_unfolding_all rfl, fun _ => rfl⟩

end Selint
