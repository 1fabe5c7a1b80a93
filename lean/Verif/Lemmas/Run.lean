import Verif.Model.Run
import Verif.Spec.Run
/-! # Lemmas about check runs -/

namespace Selint

open Spec

variable {F σ : Type}

theorem Loc.walk_eq_seq (l : Loc) : l.walk = l.seq := by
  fun_induction Loc.walk l with
  | case1 l h => rw [Loc.seq_step, h]
  | case2 l n h ih => rw [Loc.seq_step, h, ih]

theorem Loc.seq_ofForest {ts : List Tree} {l : Loc} (h : Loc.ofForest ts = some l) :
    l.seq = Tree.locsList [] ts [] := by
  cases ts with
  | nil => simp [Loc.ofForest] at h
  | cons t ts =>
    simp [Loc.ofForest] at h; subst h
    simp [Loc.seq, Loc.after, Tree.locsList]

/-- Invocations of a list of hooks, the first having index `k`. -/
def invsFrom (l : Loc) (hs : List (CheckNode F)) (k : Nat) : List (Invocation F) :=
  ((hs.zipIdx k).filter fun hi => ¬ Excepted hi.1.id l).map fun hi => ⟨l, hi.2, hi.1.fn⟩

theorem execute_append (exec : Exec F σ) (data : CheckData) (a b : List (Invocation F)) (st : σ) :
    execute exec data (a ++ b) st =
      ((execute exec data b (execute exec data a st).1).1,
        (execute exec data a st).2 ++ (execute exec data b (execute exec data a st).1).2) := by
  induction a generalizing st with
  | nil => simp [execute]
  | cons v a ih => simp [execute, ih]

/-- Final state of a run described by the specification. -/
def specState (exec : Exec F σ) (suppress : Bool) (data : CheckData) (invs : List (Invocation F))
    (s : RunState σ) : RunState σ :=
  let q := execute exec data invs s.st
  { foundIssue := s.foundIssue || q.2.any fun vr => vr.2.isSome
    st := q.1
    out := if suppress then s.out else s.out ++ findings data q.2 }

theorem specState_nil (exec : Exec F σ) (suppress : Bool) (data : CheckData) (s : RunState σ) :
    specState exec suppress data [] s = s := by
  cases s; simp [specState, execute, findings]

theorem specState_append (exec : Exec F σ) (suppress : Bool) (data : CheckData)
    (a b : List (Invocation F)) (s : RunState σ) :
    specState exec suppress data (a ++ b) s =
      specState exec suppress data b (specState exec suppress data a s) := by
  simp only [specState, execute_append, findings, List.any_append, List.filterMap_append,
    Bool.or_assoc]
  cases suppress <;> simp

/-- The counters after a run. -/
def bump (n : Nat → Nat) (hs : List (CheckNode F)) (k : Nat) : List (CheckNode F) :=
  (hs.zipIdx k).map fun hi => { hi.1 with issuesFound := hi.1.issuesFound + n hi.2 }

theorem excepted_iff (id : Str) (l : Loc) :
    skipHook id l = true ↔ Excepted id l := by
  unfold Excepted skipHook
  cases l.info.exceptions with
  | none => simp
  | some e => simp [strstr_iff]

theorem invsFrom_idx (l : Loc) (hs : List (CheckNode F)) (k : Nat) :
    ∀ v ∈ invsFrom l hs k, v.node = l ∧ k ≤ v.idx := by
  intro v hv
  simp only [invsFrom, List.mem_map, List.mem_filter] at hv
  obtain ⟨hi, ⟨h1, _⟩, rfl⟩ := hv
  exact ⟨rfl, (List.mem_zipIdx h1).1⟩

theorem execute_invs (exec : Exec F σ) (data : CheckData) (vs : List (Invocation F)) (st : σ) :
    (execute exec data vs st).2.map (·.1) = vs := by
  induction vs generalizing st with
  | nil => rfl
  | cons v vs ih => simp [execute, ih]

theorem countFor_zero_of_lt (exec : Exec F σ) (data : CheckData) (l : Loc)
    (hs : List (CheckNode F)) (k i : Nat) (st : σ) (fl : NodeFlavor) (h : i < k) :
    countFor fl i (execute exec data (invsFrom l hs k) st).2 = 0 := by
  unfold countFor
  rw [List.countP_eq_zero]
  intro vr hvr
  have : vr.1 ∈ invsFrom l hs k := by
    rw [← execute_invs exec data (invsFrom l hs k) st]
    exact List.mem_map_of_mem hvr
  have := (invsFrom_idx l hs k _ this).2
  have hne : vr.1.idx ≠ i := by omega
  simp [hne]

theorem bump_congr {n m : Nat → Nat} (hs : List (CheckNode F)) (k : Nat)
    (h : ∀ i, k ≤ i → n i = m i) : bump n hs k = bump m hs k := by
  unfold bump
  apply List.map_congr_left
  intro hi hm
  rw [h _ (List.mem_zipIdx hm).1]

theorem callChecksForNodeType_spec (exec : Exec F σ) (suppress : Bool) (data : CheckData)
    (l : Loc) (hs : List (CheckNode F)) (k : Nat) (s : RunState σ) :
    callChecksForNodeType exec suppress data l hs s =
      (bump (fun i => countFor l.flavor i (execute exec data (invsFrom l hs k) s.st).2) hs k,
        specState exec suppress data (invsFrom l hs k) s) := by
  induction hs generalizing k s with
  | nil => simp [callChecksForNodeType, invsFrom, bump, specState_nil]
  | cons h hs ih =>
    unfold callChecksForNodeType
    by_cases hx : Excepted h.id l
    · have hx' := (excepted_iff h.id l).mpr hx
      rw [if_pos hx']
      have hi : invsFrom l (h :: hs) k = invsFrom l hs (k + 1) := by
        simp [invsFrom, List.zipIdx_cons, hx]
      rw [hi, ih (k + 1)]
      simp only [bump, List.zipIdx_cons, List.map_cons]
      rw [countFor_zero_of_lt exec data l hs (k+1) k s.st l.flavor (by omega)]
      simp
    · have hx' : ¬ _ := fun h' => hx ((excepted_iff h.id l).mp h')
      rw [if_neg hx']
      have hi : invsFrom l (h :: hs) k = ⟨l, k, h.fn⟩ :: invsFrom l hs (k + 1) := by
        simp [invsFrom, List.zipIdx_cons, hx]
      rw [hi]
      cases hr : exec h.fn data l s.st with
      | mk st' r =>
        cases r with
        | none =>
          simp only
          rw [ih (k + 1)]
          have hc : ∀ i, countFor l.flavor i
              (execute exec data (⟨l, k, h.fn⟩ :: invsFrom l hs (k + 1)) s.st).2 =
              countFor l.flavor i (execute exec data (invsFrom l hs (k+1)) st').2 := by
            intro i; simp [execute, hr, countFor]
          simp only [hc]
          refine Prod.ext ?_ ?_
          · simp only [bump, List.zipIdx_cons, List.map_cons]
            rw [countFor_zero_of_lt exec data l hs (k+1) k st' l.flavor (by omega)]
            simp
          · simp only
            simp [specState, execute, hr, findings]
        | some res =>
          simp only
          rw [ih (k + 1)]
          have hc : ∀ i, countFor l.flavor i
              (execute exec data (⟨l, k, h.fn⟩ :: invsFrom l hs (k + 1)) s.st).2 =
              countFor l.flavor i (execute exec data (invsFrom l hs (k+1)) st').2 +
                (if k = i then 1 else 0) := by
            intro i; simp only [execute, hr, countFor, List.countP_cons]; simp
          simp only [hc]
          refine Prod.ext ?_ ?_
          · simp only [bump, List.zipIdx_cons, List.map_cons]
            rw [countFor_zero_of_lt exec data l hs (k+1) k st' l.flavor (by omega)]
            simp only [Nat.zero_add, if_true, List.cons.injEq, true_and]
            apply List.map_congr_left
            intro hi hm
            have : k ≠ hi.2 := by have := (List.mem_zipIdx hm).1; omega
            simp [this]
          · simp only
            simp only [specState, execute, hr, findings]
            cases suppress <;> simp

theorem invsFrom_zero (ck : Checks F) (l : Loc) : invsFrom l (ck l.flavor) 0 = invocationsAt ck l := rfl

/-- The table after a run in which hook `(fl, i)` produced `n fl i` findings. -/
def bumpAll (n : NodeFlavor → Nat → Nat) (ck : Checks F) : Checks F := fun fl => bump (n fl) (ck fl) 0

theorem bump_zero (hs : List (CheckNode F)) (k : Nat) : bump (fun _ => 0) hs k = hs := by
  simp only [bump, Nat.add_zero]
  induction hs generalizing k with
  | nil => rfl
  | cons h hs ih => simp only [List.zipIdx_cons, List.map_cons, ih]

theorem bump_bump (n m : Nat → Nat) (hs : List (CheckNode F)) (k : Nat) :
    bump m (bump n hs k) k = bump (fun i => n i + m i) hs k := by
  unfold bump
  induction hs generalizing k with
  | nil => rfl
  | cons h hs ih => simp only [List.zipIdx_cons, List.map_cons, ih, Nat.add_assoc]

theorem invocationsAt_bumpAll (n : NodeFlavor → Nat → Nat) (ck : Checks F) (l : Loc) :
    invocationsAt (bumpAll n ck) l = invocationsAt ck l := by
  rw [← invsFrom_zero, ← invsFrom_zero]
  unfold bumpAll
  generalize ck l.flavor = hs
  generalize n l.flavor = m
  generalize 0 = k
  induction hs generalizing k with
  | nil => rfl
  | cons h hs ih =>
    have ih := ih (k + 1)
    simp only [invsFrom, bump, List.zipIdx_cons, List.map_cons, List.filter_cons] at ih ⊢
    by_cases hx : Excepted h.id l <;> simp [hx] <;> simpa using ih

theorem countFor_append (fl : NodeFlavor) (i : Nat) (a b : List (Invocation F × Option CheckResult)) :
    countFor fl i (a ++ b) = countFor fl i a + countFor fl i b := by
  simp [countFor]

theorem countFor_other_flavor (exec : Exec F σ) (data : CheckData) (l : Loc) (ck : Checks F)
    (st : σ) (fl : NodeFlavor) (i : Nat) (h : fl ≠ l.flavor) :
    countFor fl i (execute exec data (invocationsAt ck l) st).2 = 0 := by
  unfold countFor
  rw [List.countP_eq_zero]
  intro vr hvr
  have : vr.1 ∈ invsFrom l (ck l.flavor) 0 := by
    rw [invsFrom_zero, ← execute_invs exec data (invocationsAt ck l) st]
    exact List.mem_map_of_mem hvr
  have := (invsFrom_idx l _ 0 _ this).1
  have hne : vr.1.node.flavor ≠ fl := by rw [this]; exact Ne.symm h
  simp [hne]

theorem callChecks_spec (exec : Exec F σ) (suppress : Bool) (ck : Checks F) (data : CheckData)
    (l : Loc) (s : RunState σ) :
    callChecks exec suppress ck data l s =
      (bumpAll (fun fl i => countFor fl i (execute exec data (invocationsAt ck l) s.st).2) ck,
        specState exec suppress data (invocationsAt ck l) s) := by
  unfold callChecks
  rw [callChecksForNodeType_spec exec suppress data l _ 0 s, invsFrom_zero]
  refine Prod.ext ?_ rfl
  funext fl
  simp only [bumpAll]
  by_cases h : fl = l.flavor
  · subst h; simp
  · rw [if_neg h]
    have : (fun i => countFor fl i (execute exec data (invocationsAt ck l) s.st).2) = fun _ => 0 := by
      funext i; exact countFor_other_flavor exec data l ck s.st fl i h
    simp only [this, bump_zero]

/-- What any run of invocations does to table and state. -/
theorem runLoop_spec (exec : Exec F σ) (suppress : Bool) (data : CheckData) (l : Loc)
    (ck : Checks F) (s : RunState σ) :
    runLoop exec suppress data l ck s =
      (bumpAll (fun fl i => countFor fl i
          (execute exec data (l.walk.flatMap (invocationsAt ck)) s.st).2) ck,
        specState exec suppress data (l.walk.flatMap (invocationsAt ck)) s) := by
  fun_induction runLoop exec suppress data l ck s with
  | case1 l ck s r h =>
    rw [Loc.walk.eq_def, h]
    simp only [List.flatMap_cons, List.flatMap_nil, List.append_nil]
    exact callChecks_spec exec suppress ck data l s
  | case2 l ck s r n h ih =>
    rw [ih]
    have hr : r = _ := callChecks_spec exec suppress ck data l s
    rw [Loc.walk.eq_def l, h]
    simp only [List.flatMap_cons, hr]
    have hinv : invocationsAt (bumpAll (fun fl i => countFor fl i
        (execute exec data (invocationsAt ck l) s.st).2) ck) = invocationsAt ck := by
      funext l'; exact invocationsAt_bumpAll _ _ _
    rw [hinv, specState_append]
    simp only [Prod.mk.injEq, and_true]
    funext fl
    unfold bumpAll
    rw [bump_bump]
    congr 1
    funext i
    rw [execute_append]
    simp only [countFor_append]
    rfl

end Selint
