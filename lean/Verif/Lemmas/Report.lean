import Verif.Spec.Report
import Verif.Props.Run
import Verif.Props.Runner
/-! # Lemmas about what a run reads and prints -/

namespace Selint
open Spec

variable {F σ : Type} {prog : Program F σ}

theorem runChecksOnOneFile_calls (exec : Exec F σ) (sup : Bool) (ck : Checks F) (data : CheckData)
    (ts : List Tree) (s : RunState σ) :
    runChecksOnOneFile exec sup ck data (Loc.ofForest ts) s =
      (bumpAll (fun fl i => countFor fl i (execute exec data (callsFor ck ts) s.st).2) ck,
        specState exec sup data (callsFor ck ts) s) := by
  unfold runChecksOnOneFile
  cases hh : Loc.ofForest ts with
  | none =>
    cases ts with
    | cons t ts => simp [Loc.ofForest] at hh
    | nil => simp only [callChecks_spec, callsFor, Tree.locsList, List.nil_append, List.flatMap_cons, List.flatMap_nil,
        List.append_nil]
  | some l =>
    have hc : callsFor ck ts = l.walk.flatMap (invocationsAt ck) ++ invocationsAt ck cleanupLoc := by
      rw [Loc.walk_eq_seq, Loc.seq_ofForest hh]; simp [callsFor]
    rw [hc]
    simp only [callChecks_spec, runLoop_spec, invocationsAt_bumpAll, ← specState_append]
    refine Prod.ext ?_ rfl
    funext fl
    simp only [bumpAll, bump_bump, execute_append, countFor_append]
    rfl

theorem callsFor_bumpAll (n : NodeFlavor → Nat → Nat) (ck : Checks F) (ts : List Tree) :
    callsFor (bumpAll n ck) ts = callsFor ck ts := by
  unfold callsFor
  congr 1
  funext l
  exact invocationsAt_bumpAll n ck l

theorem bumpAll_bumpAll (n k : NodeFlavor → Nat → Nat) (ck : Checks F) :
    bumpAll k (bumpAll n ck) = bumpAll (fun fl i => n fl i + k fl i) ck := by
  funext fl
  simp only [bumpAll, bump_bump]

theorem bumpAll_zero (ck : Checks F) : bumpAll (fun _ _ => 0) ck = ck := by
  funext fl; simp only [bumpAll, bump_zero]

/-- The state after some files. -/
def reportState (sup : Bool) (q : σ × List Finding) (s : RunState σ) : RunState σ :=
  ⟨s.foundIssue || !q.2.isEmpty, q.1, if sup then s.out else s.out ++ q.2⟩

theorem any_findings (data : CheckData) (rs : List (Invocation F × Option CheckResult)) :
    (rs.any fun vr => vr.2.isSome) = !(findings data rs).isEmpty := by
  induction rs with
  | nil => rfl
  | cons r rs ih =>
    rw [List.any_cons, ih]
    obtain ⟨v, o⟩ := r
    cases o <;> simp [findings]

theorem specState_report (exec : Exec F σ) (sup : Bool) (data : CheckData) (invs : List (Invocation F)) (s : RunState σ) :
    specState exec sup data invs s =
      reportState sup ((execute exec data invs s.st).1, findings data (execute exec data invs s.st).2) s := by
  simp only [specState, reportState, any_findings data]

/-- The files of the parses of a log. -/
def filesOf (kind : FileFlavor) (evs : List Event) : List PolicyFile :=
  evs.filterMap fun | .parse _ n _ ast => some ⟨kind, n, ast⟩ | _ => none

theorem report_append (exec : Exec F σ) (ck : Checks F) (a b : List PolicyFile) (st : σ) :
    report prog exec ck (a ++ b) st =
      ((report prog exec ck b (report prog exec ck a st).1).1,
        (report prog exec ck a st).2 ++ (report prog exec ck b (report prog exec ck a st).1).2) := by
  induction a generalizing st with
  | nil => simp [report]
  | cons x a ih => simp [report, ih]

theorem reportState_append (sup : Bool) (q : σ × List Finding) (q' : σ × List Finding) (s : RunState σ) :
    reportState sup q' (reportState sup q s) = reportState sup (q'.1, q.2 ++ q'.2) s := by
  simp only [reportState, Bool.or_assoc, RunState.mk.injEq, true_and]
  refine ⟨?_, by cases sup <;> simp⟩
  cases q.2 <;> simp

theorem replay_section {fl : NodeFlavor} (kind : FileFlavor) (m : Maps) (evs : List Event) (hp : ∀ ev ∈ evs, IsParse fl ev)
    (n : NodeFlavor → Nat → Nat) (ck : Checks F) (s : RunState σ) :
    ∃ n', (evs.map (checkOf prog kind m)).foldl (replay prog) (bumpAll n ck, s) =
      (bumpAll n' ck, reportState prog.suppress (report prog (prog.exec m) ck (filesOf kind evs) s.st) s) := by
  induction evs generalizing n s with
  | nil => exact ⟨n, by simp [filesOf, report, reportState]⟩
  | cons ev evs ih =>
    have h1 := hp ev (.head _)
    cases ev with
    | parse a nm f x =>
      simp only [List.map_cons, List.foldl_cons, checkOf, replay, runChecksOnOneFile_calls, callsFor_bumpAll,
        bumpAll_bumpAll, specState_report]
      obtain ⟨n', h2⟩ := ih (fun e he => hp e (.tail _ he))
        (fun fl i => n fl i + countFor fl i (execute (prog.exec m) (checkDataFor prog kind nm) (callsFor ck x) s.st).2)
        (reportState prog.suppress ((execute (prog.exec m) (checkDataFor prog kind nm) (callsFor ck x) s.st).1,
          findings (checkDataFor prog kind nm) (execute (prog.exec m) (checkDataFor prog kind nm) (callsFor ck x) s.st).2) s)
      refine ⟨n', h2.trans ?_⟩
      rw [reportState_append]
      rfl
    | _ => cases h1

theorem tables_genuine_append {a b : List Event} {m : Maps} (h : Genuine prog (a ++ b) m) :
    Genuine prog a m ∧ Genuine prog b (tablesOf prog a m) := (genuine_append _ _ _).1 h

theorem readAll_section {kind : FileFlavor} (evs : List Event) (m : Maps) (hp : ∀ ev ∈ evs, IsParse (fileNode kind) ev)
    (hg : Genuine prog evs m) (hf : ∀ ev ∈ evs, ¬Event.IsFailure ev) :
    readAll prog kind ((filesOf kind evs).map (·.path)) m = some (filesOf kind evs, tablesOf prog evs m) := by
  induction evs generalizing m with
  | nil => rfl
  | cons ev evs ih =>
    have h1 := hp ev (.head _)
    have h2 := hf ev (.head _)
    cases ev with
    | parse a nm f x =>
      cases h1
      obtain ⟨rfl, hg⟩ := hg
      have := ih (prog.parser (fileNode kind) nm m).2 (fun e he => hp e (.tail _ he)) hg (fun e he => hf e (.tail _ he))
      simp only [filesOf, List.filterMap_cons, List.map_cons, readAll, tablesOf] at this ⊢
      have h3 : ¬(prog.parser (fileNode kind) nm m).1 = [] := h2
      rw [if_neg h3, this]
      rfl
    | _ => cases h1

theorem asts_filesOf (kind : FileFlavor) (evs : List Event) : astsOf evs = (filesOf kind evs).map (·.trees) := by
  unfold astsOf filesOf
  rw [List.map_filterMap]
  congr 1
  funext ev
  cases ev <;> rfl

/-- The names of the parsed files are those of their nodes. -/
theorem filesOf_names {h : FileHeap} {te ifs fc cte cif : List Nat} {kind : FileFlavor} {fl : NodeFlavor} (evs : List Event)
    (hp : ∀ ev ∈ evs, IsParse fl ev) (hn : ∀ ev ∈ evs, Named h te ifs fc cte cif ev) :
    (parsedCells evs).map (fun a => (h[a]?).map FileCell.filename) = ((filesOf kind evs).map (·.path)).map some := by
  induction evs with
  | nil => rfl
  | cons ev evs ih =>
    have h1 := hp ev (.head _)
    have h2 := hn ev (.head _)
    cases ev with
    | parse a nm f x =>
      obtain ⟨⟨c, h3, h4⟩, -⟩ := h2
      have := ih (fun e he => hp e (.tail _ he)) (fun e he => hn e (.tail _ he))
      simp only [filesOf, parsedCells, List.filterMap_cons, List.map_cons, h3, Option.map_some, h4] at this ⊢
      rw [this]
    | _ => cases h1

theorem map_some_inj {α : Type} {a b : List α} (h : a.map some = b.map some) : a = b := by
  have := congrArg (List.filterMap id) h
  simpa [List.filterMap_map] using this

/-- A successful run is the reading of the policy and its report. -/
theorem RunOk.report {te ifs fc cte cif : List Nat} {s s' : RunnerState F σ} {ps cs : List Event}
    (h : RunOk prog te ifs fc cte cif s .success s' ps cs) {te' ifs' fc' cte' cif' : List Str}
    (hte : te.map (fun a => (s.heap[a]?).map FileCell.filename) = te'.map some)
    (hifs : ifs.map (fun a => (s.heap[a]?).map FileCell.filename) = ifs'.map some)
    (hfc : fc.map (fun a => (s.heap[a]?).map FileCell.filename) = fc'.map some)
    (hcte : cte.map (fun a => (s.heap[a]?).map FileCell.filename) = cte'.map some)
    (hcif : cif.map (fun a => (s.heap[a]?).map FileCell.filename) = cif'.map some) :
    ∃ files m, readPolicy prog te' ifs' fc' cte' cif' s.maps = some (files, m) ∧
      s'.rs = reportState prog.suppress (Spec.report prog (prog.exec m) s.ck files s.rs.st) s.rs := by
  obtain ⟨pIf, pCif, pCte, pTe, pFc, hF⟩ := h.full rfl
  have hg := h.genuine
  have hn : ∀ ev ∈ ps, Named s.heap te ifs fc cte cif ev := fun ev hev => (h.noCheck ev hev).2.2
  have hfail : ∀ ev ∈ ps, ¬Event.IsFailure ev := by
    rcases h.result with ⟨-, -, h1, -⟩ | ⟨h1, -⟩
    · exact h1
    · cases h1
  have hr := h.replayed
  obtain ⟨hps, hcs, ⟨i1, i2⟩, ⟨c1, c2⟩, ⟨e1, e2⟩, ⟨t1, t2⟩, f1, f2⟩ := hF
  generalize hm : tablesOf prog ps s.maps = m at hcs
  rw [hps] at hg hn hfail hm
  simp only [List.mem_append, List.mem_singleton] at hn hfail
  obtain ⟨hg, gF⟩ := tables_genuine_append hg
  obtain ⟨hg, gT⟩ := tables_genuine_append hg
  obtain ⟨hg, gE⟩ := tables_genuine_append hg
  obtain ⟨hg, -⟩ := tables_genuine_append hg
  obtain ⟨gI, gC⟩ := tables_genuine_append hg
  have nI := map_some_inj ((filesOf_names (kind := .ifFile) pIf i1 fun ev hev => hn ev (by simp [hev])).symm.trans (by rw [i2, hifs]))
  have nC := map_some_inj ((filesOf_names (kind := .ifFile) pCif c1 fun ev hev => hn ev (by simp [hev])).symm.trans (by rw [c2, hcif]))
  have nE := map_some_inj ((filesOf_names (kind := .teFile) pCte e1 fun ev hev => hn ev (by simp [hev])).symm.trans (by rw [e2, hcte]))
  have nT := map_some_inj ((filesOf_names (kind := .teFile) pTe t1 fun ev hev => hn ev (by simp [hev])).symm.trans (by rw [t2, hte]))
  have nF := map_some_inj ((filesOf_names (kind := .fcFile) pFc f1 fun ev hev => hn ev (by simp [hev])).symm.trans (by rw [f2, hfc]))
  have rI := readAll_section (kind := .ifFile) pIf s.maps i1 gI fun ev hev => hfail ev (by simp [hev])
  have rC := readAll_section (kind := .ifFile) pCif _ c1 gC fun ev hev => hfail ev (by simp [hev])
  have rE := readAll_section (kind := .teFile) pCte _ e1 gE fun ev hev => hfail ev (by simp [hev])
  have rT := readAll_section (kind := .teFile) pTe _ t1 gT fun ev hev => hfail ev (by simp [hev])
  have rF := readAll_section (kind := .fcFile) pFc _ f1 gF fun ev hev => hfail ev (by simp [hev])
  rw [nI] at rI
  rw [nC] at rC
  rw [nE] at rE
  rw [nT] at rT
  rw [nF] at rF
  refine ⟨filesOf .teFile pTe ++ filesOf .ifFile pIf ++ filesOf .fcFile pFc, m, ?_, ?_⟩
  · simp only [tablesOf_append, tablesOf, asts_filesOf .ifFile, ← List.map_append, List.map_map] at rC rE rT rF hm
    unfold readPolicy
    simp only [rI, rC, Option.bind_eq_bind, Option.bind_some]
    have e : ((filesOf .ifFile pIf ++ filesOf .ifFile pCif).map fun x => Loc.ofForest x.trees) =
      ((filesOf .ifFile pIf ++ filesOf .ifFile pCif).map (Loc.ofForest ∘ fun x => x.trees)) := rfl
    rw [e]
    simp only [rE, rT, rF, Option.bind_some, hm]
    rfl
  · rw [hcs, List.foldl_append, List.foldl_append, ← bumpAll_zero s.ck] at hr
    obtain ⟨n1, h1⟩ := replay_section (prog := prog) .teFile m pTe t1 (fun _ _ => 0) s.ck s.rs
    rw [h1] at hr
    obtain ⟨n2, h2⟩ := replay_section (prog := prog) .ifFile m pIf i1 n1 s.ck
      (reportState prog.suppress (Spec.report prog (prog.exec m) s.ck (filesOf .teFile pTe) s.rs.st) s.rs)
    rw [h2] at hr
    obtain ⟨n3, h3⟩ := replay_section (prog := prog) .fcFile m pFc f1 n2 s.ck _
    rw [h3] at hr
    rw [(Prod.mk.inj hr).2]
    rw [reportState_append, reportState_append, report_append, report_append]
    simp only [reportState, List.append_assoc]

end Selint
