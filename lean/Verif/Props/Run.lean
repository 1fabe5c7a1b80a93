import Verif.Lemmas.Run
import Verif.Lemmas.Exceptions
/-! # C04, C05, C06, C09: traversal, invocation of checks, exceptions, counters -/

namespace Selint

open Spec

/-- **C09.** Following `dfs_next` from the first node of an AST visits exactly the nodes of
that AST, each once, in document order, and stops. (`walk` follows `dfs_next` until it
returns NULL; that it is a total function is termination.) -/
theorem C09_traversal {ts : List Tree} {head : Loc} (h : Loc.ofForest ts = some head) :
    (∀ l, l ∈ head.walk ↔ l.unzip = ts) ∧
    head.walk.Pairwise (fun a b => a.addr < b.addr) ∧
    head.walk.map Loc.info = Tree.preorderList ts := by
  rw [Loc.walk_eq_seq, Loc.seq_ofForest h]
  refine ⟨fun l => ⟨fun hl => ?_, fun hl => ?_⟩, Tree.locsList_pairwise _ _ _,
    Tree.locsList_infos _ _ _⟩
  · simpa [Loc.plug] using Tree.unzip_of_mem_locsList [] ts [] l hl
  · subst hl; exact l.mem_locs_unzip

/-- What `walk` is: it starts at the node, and each next element is `dfs_next` of the one
before. -/
theorem C09_walk_is_dfs_next (l : Loc) :
    l.walk = l :: (match l.dfsNext with | none => [] | some n => n.walk) := by
  rw [Loc.walk.eq_def]; split <;> simp_all

section Examples

/-- A te file with a header and an optional block holding a call and a nested block. -/
def exNode (f : PlainFlavor) (n : Nat) : NodeInfo := ⟨.plain f none, none, n⟩
def exForest : List Tree :=
  [.mk (exNode .teFile 0) [],
   .mk (exNode .optionalPolicy 2)
     [.mk (exNode .startBlock 2) [],
      .mk (exNode .ifdef 3) [.mk (exNode .startBlock 3) [], .mk (exNode .semicolon 4) []]],
   .mk (exNode .comment 6) []]

example : (Tree.preorderList exForest).map (·.lineno) = [0, 2, 2, 3, 3, 4, 6] := by decide
example : ∃ head, Loc.ofForest exForest = some head ∧
    head.walk.map Loc.addr = [[0], [1], [1, 0], [1, 1], [1, 1, 0], [1, 1, 1], [2]] := by
  refine ⟨_, rfl, ?_⟩
  rw [Loc.walk_eq_seq]; rfl

end Examples

variable {F σ : Type}

/-- **C05.** Running the checks over a file calls, for every node of the file in document
order and then for the end-of-file node, every hook of the node's flavor that is not
excepted there, once and in registration order, and prints the findings in that order. -/
theorem C05_each_check_once_in_order (exec : Exec F σ) (ck : Checks F) (data : CheckData)
    (ts : List Tree) (s : RunState σ) :
    ∃ visits : List Loc,
      (∀ l, l ∈ visits ↔ (l.unzip = ts)) ∧
      visits.Pairwise (fun a b => a.addr < b.addr) ∧
      let invs := (visits ++ [cleanupLoc]).flatMap (invocationsAt ck)
      let r := (runChecksOnOneFile exec false ck data (Loc.ofForest ts) s).2
      r.st = (execute exec data invs s.st).1 ∧
      r.out = s.out ++ findings data (execute exec data invs s.st).2 := by
  refine ⟨Tree.locsList [] ts [], fun l => ⟨fun hl => ?_, fun hl => ?_⟩,
    Tree.locsList_pairwise _ _ _, ?_⟩
  · simpa [Loc.plug] using Tree.unzip_of_mem_locsList [] ts [] l hl
  · subst hl; exact l.mem_locs_unzip
  · unfold runChecksOnOneFile
    cases hh : Loc.ofForest ts with
    | none =>
      cases ts with
      | cons t ts => simp [Loc.ofForest] at hh
      | nil => simp only [callChecks_spec]; simp [specState, Tree.locsList]
    | some l =>
      simp only [callChecks_spec, runLoop_spec, invocationsAt_bumpAll, ← specState_append]
      rw [Loc.walk_eq_seq, Loc.seq_ofForest hh]
      simp [specState]

/-- **C06.** After a run over a file: each hook's counter has grown by exactly the number of
findings it produced; the found-issue flag is set iff it was set before or there was a
finding; nothing but the printed output depends on `--summary-only`. -/
theorem C06_counters (exec : Exec F σ) (suppress : Bool) (ck : Checks F) (data : CheckData)
    (ts : List Tree) (s : RunState σ) :
    ∃ rs : List (Invocation F × Option CheckResult),
      (runChecksOnOneFile exec false ck data (Loc.ofForest ts) s).2.out
        = s.out ++ findings data rs ∧
      let r := runChecksOnOneFile exec suppress ck data (Loc.ofForest ts) s
      (∀ (fl : NodeFlavor) (i : Nat), (r.1 fl)[i]? =
        ((ck fl)[i]?).map fun (h : CheckNode F) => { h with issuesFound := h.issuesFound + countFor fl i rs }) ∧
      (r.2.foundIssue = true ↔ s.foundIssue = true ∨ findings data rs ≠ []) ∧
      r.2.out = (if suppress then s.out else s.out ++ findings data rs) := by
  have key : ∃ invs, ∀ sup, runChecksOnOneFile exec sup ck data (Loc.ofForest ts) s =
      (bumpAll (fun fl i => countFor fl i (execute exec data invs s.st).2) ck,
        specState exec sup data invs s) := by
    unfold runChecksOnOneFile
    cases hh : Loc.ofForest ts with
    | none =>
      exact ⟨invocationsAt ck cleanupLoc, fun sup => by simp only [callChecks_spec]⟩
    | some l =>
      refine ⟨l.walk.flatMap (invocationsAt ck) ++ invocationsAt ck cleanupLoc, fun sup => ?_⟩
      simp only [callChecks_spec, runLoop_spec, invocationsAt_bumpAll, ← specState_append]
      refine Prod.ext ?_ rfl
      funext fl
      simp only [bumpAll, bump_bump, execute_append, countFor_append]
      rfl
  obtain ⟨invs, key⟩ := key
  refine ⟨(execute exec data invs s.st).2, ?_, ?_⟩
  · rw [key]; simp [specState]
  · simp only [key]
    refine ⟨fun fl i => ?_, ?_, ?_⟩
    · simp only [bumpAll, bump, List.getElem?_map, List.getElem?_zipIdx]
      cases (ck fl)[i]? <;> simp
    · simp only [specState, Bool.or_eq_true, findings, List.any_eq_true]
      apply or_congr Iff.rfl
      simp only [ne_eq, List.filterMap_eq_nil_iff, Option.map_eq_none_iff]
      constructor
      · rintro ⟨vr, h1, h2⟩ h3
        have := h3 _ h1
        simp_all
      · intro h
        apply Classical.byContradiction
        intro hn
        apply h
        intro vr hvr
        cases hres : vr.2 with
        | none => rfl
        | some r => exact absurd ⟨vr, hvr, by simp [hres]⟩ hn
    · simp [specState]

/-- **C04 (mechanism).** On a node, exactly the hooks whose id occurs in the node's
exception text are left out; all others are called, and a node without exceptions gets all
of them. Exceptions of other nodes play no role. -/
theorem C04_suppresses_exactly (ck : Checks F) (l : Loc) (i : Nat) (h : CheckNode F)
    (hi : (ck l.flavor)[i]? = some h) :
    (⟨l, i, h.fn⟩ ∈ invocationsAt ck l) ↔
      ¬ ∃ e, l.info.exceptions = some e ∧ h.id <:+: e := by
  simp only [invocationsAt, List.mem_map, List.mem_filter, Invocation.mk.injEq, true_and,
    decide_eq_true_eq]
  constructor
  · rintro ⟨⟨h', i'⟩, ⟨h1, h2⟩, h3, h4⟩
    simp only at h3 h4
    subst h3
    rw [List.mem_zipIdx_iff_getElem?] at h1
    simp only at h1
    rw [hi] at h1
    cases h1
    exact h2
  · intro hne
    exact ⟨(h, i), ⟨List.mem_zipIdx_iff_getElem?.mpr hi, hne⟩, rfl, rfl⟩

/-- **C04 (ids).** For an exception text in the documented format (an optional space, then
ids separated by `,` or `, `), the check with id `w` is left out iff some listed id starts
with `w`. -/
theorem C04_listed_prefix {w : Str} (hw : IsId w) {ids : List Str} {text : Str}
    (h : Listing ids text) (hids : ∀ j ∈ ids, IsId j) (space : Bool) (l : Loc)
    (hl : l.info.exceptions = some ((if space then [' '] else []) ++ text)) :
    Excepted w l ↔ ∃ j ∈ ids, w <+: j := by
  unfold Excepted
  rw [hl]
  simp only [Option.some.injEq, exists_eq_left']
  rw [← strstr_listing hw h hids, ← strstr_iff]
  cases space
  · simp
  · simp [strstr_leading_space hw]

/-- **C04, partial.** The property says: exactly the *named* checks are suppressed. Proved
for lists of ids that, like all existing ids, have three digits. Missing: ids with more
digits, where the statement is false, see `C04_false_in_general`. -/
theorem C04_named_only_partial {w : Str} (hw : IsId w) (hw3 : w.length = 5)
    {ids : List Str} {text : Str}
    (h : Listing ids text) (hids : ∀ j ∈ ids, IsId j ∧ j.length = 5) (space : Bool) (l : Loc)
    (hl : l.info.exceptions = some ((if space then [' '] else []) ++ text)) :
    Excepted w l ↔ w ∈ ids := by
  rw [C04_listed_prefix hw h (fun j hj => (hids j hj).1) space l hl]
  constructor
  · rintro ⟨j, hj, hp⟩
    have := hp.eq_of_length (by rw [hw3, (hids j hj).2])
    subst this; exact hj
  · intro hm; exact ⟨w, hm, List.prefix_rfl⟩

/-- The general claim is false: `#selint-disable:W-0011` (not an existing id) switches off
W-001. -/
theorem C04_false_in_general :
    ∃ (w : Str) (ids : List Str) (text : Str) (l : Loc), IsId w ∧ Listing ids text ∧
      (∀ j ∈ ids, IsId j) ∧ l.info.exceptions = some text ∧ w ∉ ids ∧ Excepted w l := by
  refine ⟨cs!"W-001", [cs!"W-0011"], cs!"W-0011",
    ⟨.mk ⟨.plain .comment none, some cs!"W-0011", 1⟩ [], [], [], []⟩, ?_, .one _, ?_, rfl, ?_, ?_⟩
  · exact ⟨'W', cs!"001", rfl, by decide, by decide, by decide⟩
  · intro j hj
    simp only [List.mem_singleton] at hj
    subst hj
    exact ⟨'W', cs!"0011", rfl, by decide, by decide, by decide⟩
  · decide
  · decide

/-- Non-vacuity: two ids in one list. -/
example : Listing [cs!"E-003", cs!"W-001"] cs!"E-003, W-001" :=
  .cons cs!"E-003" cs!", " (Or.inr rfl) (.one _)

end Selint
