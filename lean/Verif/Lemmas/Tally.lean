import Verif.Model.Run
import Verif.Spec.Runner
import Verif.Spec.Summary
/-! # What running checks adds to hooks and output -/

namespace Selint
open Spec

variable {F σ : Type}

/-- The issues of an id, in a list of pairs of the id of a hook and what it found. -/
def tallyOf (id : Str) (fs : List (Str × Finding)) : Nat := fs.countP fun p => decide (p.1 = id)

theorem tallyOf_append (id : Str) (a b : List (Str × Finding)) :
    tallyOf id (a ++ b) = tallyOf id a + tallyOf id b := by simp [tallyOf]

/-- From `x` to `y` exactly `fs` was found, by hooks that are in `H`. -/
structure Tally (suppress : Bool) (H : F → Str → Prop) (Q : F → Str → Finding → Prop)
    (x y : Checks F × RunState σ) (fs : List (Str × Finding)) : Prop where
  out : y.2.out = if suppress then x.2.out else x.2.out ++ fs.map (·.2)
  found : y.2.foundIssue = true ↔ x.2.foundIssue = true ∨ fs ≠ []
  count : ∀ id, totalIssues id (flatNodes y.1) = totalIssues id (flatNodes x.1) + tallyOf id fs
  hooks : ∀ fl, ∀ h ∈ y.1 fl, H h.fn h.id
  prov : ∀ p ∈ fs, ∃ fn, H fn p.1 ∧ Q fn p.1 p.2

theorem Tally.refl {suppress : Bool} {H : F → Str → Prop} {Q : F → Str → Finding → Prop}
    {x : Checks F × RunState σ} (h : ∀ fl, ∀ k ∈ x.1 fl, H k.fn k.id) : Tally suppress H Q x x [] :=
  ⟨by simp, by simp, by simp [tallyOf], h, by simp⟩

theorem Tally.trans {suppress : Bool} {H : F → Str → Prop} {Q : F → Str → Finding → Prop}
    {x y z : Checks F × RunState σ} {a b : List (Str × Finding)} (h1 : Tally suppress H Q x y a)
    (h2 : Tally suppress H Q y z b) : Tally suppress H Q x z (a ++ b) where
  out := by rw [h2.out, h1.out]; cases suppress <;> simp
  found := by rw [h2.found, h1.found]; simp [Classical.or_iff_not_imp_left]
  count := fun id => by rw [h2.count, h1.count, tallyOf_append]; omega
  hooks := h2.hooks
  prov := fun p hp => (List.mem_append.1 hp).elim (h1.prov p) (h2.prov p)

theorem totalIssues_cons {h : CheckNode F} {id : Str} {l : List (CheckNode F)} :
    totalIssues id (h :: l) = (if h.id = id then h.issuesFound else 0) + totalIssues id l := by
  unfold totalIssues
  by_cases e : h.id = id <;> simp [e]

theorem totalIssues_append {id : Str} {a b : List (CheckNode F)} :
    totalIssues id (a ++ b) = totalIssues id a + totalIssues id b := by
  simp [totalIssues]

/-- Replacing the hooks of one flavor changes the totals by the difference. -/
theorem totalIssues_update (id : Str) (ck : Checks F) (fl : NodeFlavor) (l : List (CheckNode F)) (n : Nat)
    (h : totalIssues id l = totalIssues id (ck fl) + n) :
    totalIssues id (flatNodes fun g => if g = fl then l else ck g) = totalIssues id (flatNodes ck) + n := by
  have hmem : fl ∈ NodeFlavor.all := by cases fl <;> decide
  have hnd : NodeFlavor.all.Nodup := by decide
  have out : ∀ L : List NodeFlavor, fl ∉ L →
      totalIssues id (L.flatMap fun g => if g = fl then l else ck g) = totalIssues id (L.flatMap ck) := by
    intro L hL
    induction L with
    | nil => rfl
    | cons g L ih =>
      simp only [List.mem_cons, not_or] at hL
      simp only [List.flatMap_cons, totalIssues_append, ih hL.2, if_neg (Ne.symm hL.1)]
  unfold flatNodes
  generalize NodeFlavor.all = L at hmem hnd
  induction L with
  | nil => cases hmem
  | cons g L ih =>
    simp only [List.flatMap_cons, totalIssues_append]
    rw [List.nodup_cons] at hnd
    by_cases e : g = fl
    · subst e
      rw [if_pos rfl, out L hnd.1, h]; omega
    · rw [if_neg e]
      have := ih (by simpa [Ne.symm e] using hmem) hnd.2
      omega

section
variable (exec : Exec F σ) (suppress : Bool) (data : CheckData) (H : F → Str → Prop)

/-- What a hook is found to say about a node of the file. -/
def Says (fn : F) (_ : Str) (f : Finding) : Prop :=
  ∃ (node : Loc) (st : σ) (res : CheckResult), (exec fn data node st).2 = some res ∧
    f = ⟨data.filename, node.info.lineno, res⟩

theorem callChecksForNodeType_tally (node : Loc) (hs : List (CheckNode F)) (s : RunState σ)
    (hH : ∀ h ∈ hs, H h.fn h.id) :
    ∃ fs : List (Str × Finding),
      (callChecksForNodeType exec suppress data node hs s).2.out =
        (if suppress then s.out else s.out ++ fs.map (·.2)) ∧
      ((callChecksForNodeType exec suppress data node hs s).2.foundIssue = true ↔ s.foundIssue = true ∨ fs ≠ []) ∧
      (∀ id, totalIssues id (callChecksForNodeType exec suppress data node hs s).1 = totalIssues id hs + tallyOf id fs) ∧
      (∀ h ∈ (callChecksForNodeType exec suppress data node hs s).1, H h.fn h.id) ∧
      ∀ p ∈ fs, ∃ fn, H fn p.1 ∧ Says exec data fn p.1 p.2 := by
  induction hs generalizing s with
  | nil => exact ⟨[], by simp [callChecksForNodeType], by simp [callChecksForNodeType],
      by simp [callChecksForNodeType, tallyOf], by simp [callChecksForNodeType], by simp⟩
  | cons cur rest ih =>
    have hrest : ∀ h ∈ rest, H h.fn h.id := fun h hm => hH h (.tail _ hm)
    have hcur := hH cur (.head _)
    unfold callChecksForNodeType
    by_cases hsk : skipHook cur.id node = true
    · obtain ⟨fs, h1, h2, h3, h4, h5⟩ := ih s hrest
      rw [if_pos hsk]
      refine ⟨fs, h1, h2, fun id => ?_, ?_, h5⟩
      · simp only [totalIssues_cons, h3 id]; omega
      · intro h hm
        rcases List.mem_cons.1 hm with rfl | hm
        · exact hcur
        · exact h4 h hm
    · rw [if_neg hsk]
      cases he : exec cur.fn data node s.st with
      | mk st' r =>
      cases r with
      | none =>
        obtain ⟨fs, h1, h2, h3, h4, h5⟩ := ih { s with st := st' } hrest
        refine ⟨fs, h1, h2, fun id => ?_, ?_, h5⟩
        · simp only [totalIssues_cons, h3 id]; omega
        · intro h hm
          rcases List.mem_cons.1 hm with rfl | hm
          · exact hcur
          · exact h4 h hm
      | some res =>
        obtain ⟨fs, h1, h2, h3, h4, h5⟩ := ih { foundIssue := true, st := st', out := if suppress then s.out
          else s.out ++ [⟨data.filename, node.info.lineno, res⟩] } hrest
        refine ⟨(cur.id, ⟨data.filename, node.info.lineno, res⟩) :: fs, ?_, ?_, fun id => ?_, ?_, ?_⟩
        · simp only
          rw [h1]
          cases suppress <;> simp
        · simp only
          rw [h2]
          simp
        · simp only [totalIssues_cons, h3 id, tallyOf, List.countP_cons, decide_eq_true_eq]
          by_cases e : cur.id = id
          · simp only [e, if_true]; omega
          · simp only [e, if_false]; omega
        · intro h hm
          rcases List.mem_cons.1 hm with rfl | hm
          · exact hcur
          · exact h4 h hm
        · intro p hp
          rcases List.mem_cons.1 hp with rfl | hp
          · exact ⟨cur.fn, hcur, node, s.st, res, by rw [he], rfl⟩
          · exact h5 p hp

theorem callChecks_tally (node : Loc) (x : Checks F × RunState σ) (hH : ∀ fl, ∀ h ∈ x.1 fl, H h.fn h.id) :
    ∃ fs, Tally suppress H (Says exec data) x (callChecks exec suppress x.1 data node x.2) fs := by
  obtain ⟨fs, h1, h2, h3, h4, h5⟩ :=
    callChecksForNodeType_tally exec suppress data H node (x.1 node.flavor) x.2 (hH _)
  refine ⟨fs, h1, h2, fun id => ?_, fun fl h hm => ?_, h5⟩
  · exact totalIssues_update id x.1 node.flavor _ _ (h3 id)
  · simp only [callChecks] at hm
    split at hm
    · exact h4 h hm
    · exact hH fl h hm

theorem runLoop_tally (cur : Loc) (x : Checks F × RunState σ) (hH : ∀ fl, ∀ h ∈ x.1 fl, H h.fn h.id) :
    ∃ fs, Tally suppress H (Says exec data) x (runLoop exec suppress data cur x.1 x.2) fs := by
  unfold runLoop
  obtain ⟨fs, h1⟩ := callChecks_tally exec suppress data H cur x hH
  simp only
  split
  · exact ⟨fs, h1⟩
  · rename_i n hn
    obtain ⟨gs, h2⟩ := runLoop_tally n (callChecks exec suppress x.1 data cur x.2) h1.hooks
    exact ⟨fs ++ gs, h1.trans h2⟩
termination_by cur.remaining
decreasing_by exact Loc.remaining_dfsNext (by assumption)

theorem runChecks_tally (head : Option Loc) (x : Checks F × RunState σ) (hH : ∀ fl, ∀ h ∈ x.1 fl, H h.fn h.id) :
    ∃ fs, Tally suppress H (Says exec data) x (runChecksOnOneFile exec suppress x.1 data head x.2) fs := by
  unfold runChecksOnOneFile
  cases head with
  | none => exact callChecks_tally exec suppress data H cleanupLoc x hH
  | some l =>
    obtain ⟨fs, h1⟩ := runLoop_tally exec suppress data H l x hH
    obtain ⟨gs, h2⟩ := callChecks_tally exec suppress data H cleanupLoc (runLoop exec suppress data l x.1 x.2) h1.hooks
    exact ⟨fs ++ gs, h1.trans h2⟩

end

/-- A sequence of checks. -/
theorem replay_tally (prog : Program F σ) (H : F → Str → Prop) (evs : List Event) (x : Checks F × RunState σ)
    (hH : ∀ fl, ∀ h ∈ x.1 fl, H h.fn h.id) :
    ∃ fs, Tally prog.suppress H
      (fun fn i f => ∃ a n data ast m, .check a n data ast m ∈ evs ∧ Says (prog.exec m) data fn i f)
      x (evs.foldl (replay prog) x) fs := by
  induction evs generalizing x with
  | nil => exact ⟨[], .refl hH⟩
  | cons ev evs ih =>
    rw [List.foldl_cons]
    have step : ∃ fs, Tally prog.suppress H
        (fun fn i f => ∃ a n data ast m, .check a n data ast m ∈ ev :: evs ∧ Says (prog.exec m) data fn i f)
        x (replay prog x ev) fs := by
      cases ev with
      | check a n data ast m =>
        obtain ⟨fs, h⟩ := runChecks_tally (prog.exec m) prog.suppress data H (Loc.ofForest ast) x hH
        refine ⟨fs, h.out, h.found, h.count, h.hooks, fun p hp => ?_⟩
        obtain ⟨fn, h1, h2⟩ := h.prov p hp
        exact ⟨fn, h1, a, n, data, ast, m, .head _, h2⟩
      | _ => exact ⟨[], .refl hH⟩
    obtain ⟨fs, h1⟩ := step
    obtain ⟨gs, h2⟩ := ih (replay prog x ev) h1.hooks
    refine ⟨fs ++ gs, h1.trans ⟨h2.out, h2.found, h2.count, h2.hooks, fun p hp => ?_⟩⟩
    obtain ⟨fn, h3, a, n, data, ast, m, h4, h5⟩ := h2.prov p hp
    exact ⟨fn, h3, a, n, data, ast, m, .tail _ h4, h5⟩

end Selint
