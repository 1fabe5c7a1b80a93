import Verif.Model.Selint
import Verif.Lemmas.Tally
import Verif.Props.Scan
import Verif.Props.Main
import Verif.Props.Summary
import Verif.Props.ModulesConf
import Verif.Props.Safety
import Verif.Props.ParseSafe
/-! # C71: the program from the command line to the exit status -/

namespace Selint
open Spec

/-! ## The analysis of the collected files -/

/-- The files of a list. -/
def Scan.filesOf (s : Scan) : Which → List Str
  | .te => s.te | .ifs => s.ifs | .fc => s.fc | .cte => s.contextTe | .cif => s.contextIf

theorem pushes_files (s : Scan) (w : Which) :
    ((pushes s).reverse.filter (·.1 = w)).map (some ·.2) = (s.filesOf w).map some := by
  have key : ∀ (w w' : Which) (l : List Str),
      ((l.map (w', ·)).filter (·.1 = w)).map (fun p : Which × Str => some p.2) = if w' = w then l.map some else [] := by
    intro w w' l
    by_cases h : w' = w
    · subst h
      rw [if_pos rfl, List.filter_eq_self.2 (by simp), List.map_map]; rfl
    · rw [if_neg h, List.map_eq_nil_iff, List.filter_eq_nil_iff]
      simp [h]
  simp only [pushes, List.reverse_reverse, List.filter_append, List.map_append, key]
  cases w <;> simp [Scan.filesOf]

/-- What is known of an analysis with a result. -/
structure Analysed (w : Machine) (st : Settings) (s : Scan) (ck : Checks CheckFn) (e : SelintError)
    (r : RunnerState CheckFn (Res Statics)) (A : Which → List Nat) (ps cs : List Event) : Prop where
  world : World (pushAll (pushes s)).1 (pushAll (pushes s)).2 (A .te) (A .ifs) (A .fc) (A .cte) (A .cif)
  names : ∀ l, (A l).map (fun a => ((pushAll (pushes s)).1[a]?).map FileCell.filename) = (s.filesOf l).map some
  run : RunOk (wholeProgram (w.sources st.customFcMacros) st.opts.suppressOutput st.checkData)
    (A .te) (A .ifs) (A .fc) (A .cte) (A .cif) ⟨(pushAll (pushes s)).1, s.maps, ck, ⟨false, .ok .init, []⟩, []⟩ e r ps cs
  defined : undefinedParse (w.sources st.customFcMacros) st.opts.suppressOutput st.checkData r.log s.maps = false
  noUb : r.rs.st ≠ .ub

/-- The lists of files, as cells. -/
theorem pushes_world (s : Scan) : ∃ A : Which → List Nat,
    World (pushAll (pushes s)).1 (pushAll (pushes s)).2 (A .te) (A .ifs) (A .fc) (A .cte) (A .cif) ∧
    ∀ l, (A l).map (fun a => ((pushAll (pushes s)).1[a]?).map FileCell.filename) = (s.filesOf l).map some := by
  obtain ⟨A, h1, h2, h3, h4, h5⟩ := pushAll_lists (pushes s)
  refine ⟨A, ⟨h1 .te, h1 .ifs, h1 .fc, h1 .cte, h1 .cif, ?_⟩, fun l => by rw [h4, pushes_files]⟩
  have dis : ∀ w w', w ≠ w' → ∀ a ∈ A w, ∀ b ∈ A w', a ≠ b := by
    intro w w' hne a ha b hb e; subst e; exact h3 w w' hne a ha hb
  simp only [List.nodup_append, List.mem_append]
  refine ⟨⟨⟨⟨h2 _, h2 _, dis _ _ (by decide)⟩, h2 _, ?_⟩, h2 _, ?_⟩, h2 _, ?_⟩
  · rintro a (ha | ha)
    · exact dis _ _ (by decide) a ha
    · exact dis _ _ (by decide) a ha
  · rintro a ((ha | ha) | ha)
    · exact dis _ _ (by decide) a ha
    · exact dis _ _ (by decide) a ha
    · exact dis _ _ (by decide) a ha
  · rintro a (((ha | ha) | ha) | ha)
    · exact dis _ _ (by decide) a ha
    · exact dis _ _ (by decide) a ha
    · exact dis _ _ (by decide) a ha
    · exact dis _ _ (by decide) a ha

theorem analyse_analysed {w : Machine} {st : Settings} {s : Scan} {ck : Checks CheckFn} {e : SelintError}
    {r : RunnerState CheckFn (Res Statics)} (h : analyse w st s ck = .ok (e, r)) :
    ∃ A ps cs, Analysed w st s ck e r A ps cs := by
  obtain ⟨A, hw, hn⟩ := pushes_world s
  obtain ⟨e', r', ps, cs, h1, h2⟩ := runAnalysis_ok
    (prog := wholeProgram (w.sources st.customFcMacros) st.opts.suppressOutput st.checkData)
    ⟨(pushAll (pushes s)).1, s.maps, ck, ⟨false, .ok .init, []⟩, []⟩ hw
  unfold analyse at h
  simp only [h1] at h
  split at h
  · cases h
  · rename_i hu
    split at h
    · cases h
    · rename_i x hx
      cases h
      exact ⟨A, ps, cs, hw, hn, h2, by simpa using hu, by rw [hx]; nofun⟩

section
variable {w : Machine} {st : Settings} {s : Scan} {ck : Checks CheckFn} {e : SelintError}
  {r : RunnerState CheckFn (Res Statics)} {A : Which → List Nat} {ps cs : List Event}

theorem Analysed.name_mem (h : Analysed w st s ck e r A ps cs) {l : Which} {a : Nat} (ha : a ∈ A l) {c : FileCell}
    (hc : (pushAll (pushes s)).1[a]? = some c) : c.filename ∈ s.filesOf l := by
  have h1 : some c.filename ∈ (s.filesOf l).map some := by
    rw [← h.names l]
    exact List.mem_map.2 ⟨a, ha, by rw [hc]; rfl⟩
  simpa using h1

/-- A check is of a file of one of the three lists. -/
theorem Analysed.check_name (h : Analysed w st s ck e r A ps cs) {a : Nat} {n : Str} {data : CheckData}
    {ast : List Tree} {m : Maps} (hm : .check a n data ast m ∈ cs) :
    (∃ fl, data = checkDataFor (wholeProgram (w.sources st.customFcMacros) st.opts.suppressOutput st.checkData) fl n) ∧
    n ∈ s.te ++ s.ifs ++ s.fc := by
  rcases h.run.result with ⟨-, -, -, h1, h2⟩ | ⟨-, rfl, -⟩
  · obtain ⟨a', n', fl, ast', e, h3⟩ := h2 _ hm
    cases e
    refine ⟨⟨fl, rfl⟩, ?_⟩
    obtain ⟨-, -, ⟨c, h4, rfl⟩, -⟩ := h.run.noCheck _ h3
    have h5 : a ∈ A .te ++ A .ifs ++ A .fc := by
      rw [← h1]; exact List.mem_filterMap.2 ⟨_, hm, rfl⟩
    simp only [List.mem_append] at h5 ⊢
    rcases h5 with (h5 | h5) | h5
    · exact .inl (.inl (h.name_mem h5 h4))
    · exact .inl (.inr (h.name_mem h5 h4))
    · exact .inr (h.name_mem h5 h4)
  · cases hm

/-- What the analysis reports. -/
theorem Analysed.tally (h : Analysed w st s ck e r A ps cs) (H : CheckFn → Str → Prop)
    (hH : ∀ fl, ∀ k ∈ ck fl, H k.fn k.id) :
    ∃ fs, Tally st.opts.suppressOutput H
      (fun fn i f => ∃ a n data ast m, .check a n data ast m ∈ cs ∧ Says (selintExec m) data fn i f)
      (ck, ⟨false, .ok .init, []⟩) (r.ck, r.rs) fs := by
  obtain ⟨fs, h1⟩ := replay_tally (wholeProgram (w.sources st.customFcMacros) st.opts.suppressOutput st.checkData)
    H cs (ck, ⟨false, .ok .init, []⟩) hH
  rw [← h.run.replayed] at h1
  exact ⟨fs, h1⟩

end

/-- The two ways through `main`. -/
theorem selintMain_cases {w : Machine} {args : List Opt} {paths : List Str} {r : MainResult}
    (h : selintMain w args paths = .ok r) :
    (¬Reaches w.config args paths.length ∧ r.findings = [] ∧ r.summary = none ∧
      ∀ scan an, r.status = mainStatus w.config scan an args paths.length) ∨
    (Reaches w.config args paths.length ∧ ∃ st s ck e rs A ps cs,
      settings w.config (optionsOf args) paths.length = .go st ∧ st.opts = optionsOf args ∧
      loadSupport w st.opts (collect w st paths) = .ok s ∧
      registerChecks st.severity st.enableConf s.maps = some ck ∧ Analysed w st s ck e rs A ps cs ∧
      r.status = exitStatus st.opts.failOnFinding ⟨e, rs.rs.foundIssue⟩ ∧ r.findings = rs.rs.out ∧
      r.summary = if e = .success ∧ st.opts.summaryFlag then some rs.ck else none) := by
  unfold selintMain at h
  have hopt := C08_options args
  cases hstop : args.findSome? optStop with
  | some c =>
    rw [hstop] at hopt
    simp only at hopt
    rw [hopt] at h
    cases h
    refine .inl ⟨fun hr => ?_, rfl, rfl, fun scan an => ?_⟩
    · have := List.findSome?_eq_none_iff.2 hr.noStop
      rw [hstop] at this; cases this
    · unfold mainStatus; rw [hopt]
  | none =>
    rw [hstop] at hopt
    simp only at hopt
    rw [hopt] at h
    simp only at h
    cases h1 : invalidIds ((optionsOf args).clDisabled ++ (optionsOf args).clEnabled) with
    | ub => rw [h1] at h; cases h
    | ok w1 =>
    rw [h1, Res.bind_ok] at h
    cases h2 : invalidIds (configIds w.config (optionsOf args)) with
    | ub => rw [h2] at h; cases h
    | ok w2 =>
    rw [h2, Res.bind_ok] at h
    cases h3 : settings w.config (optionsOf args) paths.length with
    | exit c =>
      rw [h3] at h
      cases h
      refine .inl ⟨fun hr => ?_, rfl, rfl, fun scan an => ?_⟩
      · have hse : ¬ ((optionsOf args).onlyEnabled = true ∧ (optionsOf args).clEnabled.isEmpty = true) := by
          rintro ⟨h1, h2⟩
          rw [clEnabled_empty_iff] at h2
          exact h2 (hr.enabled (by simpa [optionsOf] using h1))
        rcases settings_spec w.config (optionsOf args) paths.length with h4 | h4 | h4 | h4
        · exact hr.readable h4.1
        · exact hr.accepted h4.2.1
        · exact h4.2.2.1.elim hse hr.paths
        · obtain ⟨_, _, _, _, st, _, h5⟩ := h4
          rw [h3] at h5; cases h5
      · unfold mainStatus; rw [hopt]; simp only [h3]
    | go st =>
      rw [h3] at h
      simp only at h
      have hno : ∀ x ∈ args, optStop x = none := List.findSome?_eq_none_iff.1 hstop
      have hreach : Reaches w.config args paths.length ∧ st.opts = optionsOf args := by
        rcases settings_spec w.config (optionsOf args) paths.length with h4 | h4 | h4 | h4
        · rw [h3] at h4; cases h4.2
        · rw [h3] at h4; cases h4.2.2
        · rw [h3] at h4; cases h4.2.2.2
        · obtain ⟨h5, h6, h7, h8, st', h9, h10⟩ := h4
          rw [h3] at h10; cases h10
          refine ⟨⟨hno, h5, h6, fun ho => ?_, h8⟩, h9⟩
          apply Classical.byContradiction
          intro hne
          exact h7 ⟨by simpa [optionsOf] using ho, (clEnabled_empty_iff args).mpr hne⟩
      refine .inr ⟨hreach.1, ?_⟩
      unfold mainWith at h
      cases h4 : loadSupport w st.opts (collect w st paths) with
      | ub => rw [h4] at h; cases h
      | ok s =>
      rw [h4, Res.bind_ok] at h
      cases h5 : registerChecks st.severity st.enableConf s.maps with
      | none =>
        have := settings_severity w.config args paths.length st hno h3
        exact absurd ((C03_invalid_level _ _ _).mp h5) this
      | some ck =>
      rw [h5] at h
      simp only at h
      cases h6 : analyse w st s ck with
      | ub => rw [h6] at h; cases h
      | ok x =>
      obtain ⟨e, rs⟩ := x
      rw [h6, Res.bind_ok] at h
      obtain ⟨A, ps, cs, hA⟩ := analyse_analysed h6
      cases h
      exact ⟨st, s, ck, e, rs, A, ps, cs, rfl, hreach.2, h4, h5, hA, rfl, rfl, rfl⟩

/-! ## What is reported -/

/-- A hook that may be registered: a row of the table that is at or above the level, enabled and
applicable. -/
def Registered (level : Char) (c : EnableConf) (m : Maps) (fn : CheckFn) (id : Str) : Prop :=
  ∃ row ∈ checkTable, fn = row.fn ∧ id = row.id ∧ atLeast row.sev level = true ∧
    isCheckEnabled row.id c = true ∧ row.needs m = true

theorem registered_hooks {level : Char} {c : EnableConf} {m : Maps} {ck : Checks CheckFn}
    (h : registerChecks level c m = some ck) (fl : NodeFlavor) (k : CheckNode CheckFn) (hk : k ∈ ck fl) :
    Registered level c m k.fn k.id ∧ k.issuesFound = 0 := by
  rw [C03_registered level c m ck h fl] at hk
  simp only [hooksOn, List.mem_map, List.mem_filter, Bool.and_eq_true, decide_eq_true_eq] at hk
  obtain ⟨row, ⟨h1, ⟨⟨h2, h3⟩, h4⟩, _⟩, rfl⟩ := hk
  exact ⟨⟨row, h1, rfl, rfl, h2, h3, h4⟩, rfl⟩

theorem registered_total {level : Char} {c : EnableConf} {m : Maps} {ck : Checks CheckFn}
    (h : registerChecks level c m = some ck) (id : Str) : totalIssues id (flatNodes ck) = 0 := by
  unfold totalIssues
  rw [List.sum_eq_zero_iff_forall_eq_nat]
  intro n hn
  simp only [List.mem_map, List.mem_filter, flatNodes, List.mem_flatMap] at hn
  obtain ⟨k, ⟨⟨fl, -, h2⟩, -⟩, rfl⟩ := hn
  exact (registered_hooks h fl k h2).2

/-- A finding that is credited to the id of a hook: it carries this id, or it is an internal
error. -/
def Spec.Credited (id : Str) (f : Finding) : Prop :=
  ∃ row ∈ checkTable, id = row.id ∧ (f.result.severity = row.sev ∧ f.result.checkId = row.num ∨
    f.result.severity = 'F' ∧ f.result.checkId = 2)

/-- What an analysis reports, from the state before to the state after. -/
structure Reported (w : Machine) (st : Settings) (s : Scan) (e : SelintError)
    (rs : RunnerState CheckFn (Res Statics)) (fs : List (Str × Finding)) : Prop where
  out : rs.rs.out = if st.opts.suppressOutput then [] else fs.map (·.2)
  found : rs.rs.foundIssue = true ↔ fs ≠ []
  count : ∀ id, totalIssues id (flatNodes rs.ck) = tallyOf id fs
  hooks : ∀ fl, ∀ k ∈ rs.ck fl, Registered st.severity st.enableConf s.maps k.fn k.id
  credit : ∀ p ∈ fs, Credited p.1 p.2 ∧ MayPrint st.severity st.enableConf s.maps p.2 ∧
    ∃ n ∈ s.te ++ s.ifs ++ s.fc, p.2.filename = basename n
  error : e ≠ .success → fs = []

theorem Analysed.reported {w : Machine} {st : Settings} {s : Scan} {ck : Checks CheckFn} {e : SelintError}
    {rs : RunnerState CheckFn (Res Statics)} {A : Which → List Nat} {ps cs : List Event}
    (h : Analysed w st s ck e rs A ps cs) (hck : registerChecks st.severity st.enableConf s.maps = some ck) :
    ∃ fs, Reported w st s e rs fs := by
  obtain ⟨fs, ht⟩ := h.tally (Registered st.severity st.enableConf s.maps) fun fl k hk => (registered_hooks hck fl k hk).1
  have hprov : ∀ p ∈ fs, Credited p.1 p.2 ∧ MayPrint st.severity st.enableConf s.maps p.2 ∧
      (∃ n ∈ s.te ++ s.ifs ++ s.fc, p.2.filename = basename n) ∧ cs ≠ [] := by
    intro p hp
    obtain ⟨fn, ⟨row, h1, rfl, h2, h3⟩, a, n, data, ast, m, hm, node, x, res, h4, h5⟩ := ht.prov p hp
    obtain ⟨⟨fl, hd⟩, hn⟩ := h.check_name hm
    obtain ⟨s₁, s₂, hrun⟩ := selintExec_some h4
    have hid := C66_ids row h1 m data node s₁ s₂ res hrun
    rw [h5]
    refine ⟨⟨row, h1, h2, hid⟩, ?_, ⟨n, hn, by rw [hd]; rfl⟩, by rintro rfl; cases hm⟩
    rcases hid with hid | hid
    · exact .inr ⟨row, h1, hid.1, hid.2, h3⟩
    · exact .inl hid
  refine ⟨fs, ?_, ?_, fun id => ?_, ht.hooks, fun p hp => ?_, fun he => ?_⟩
  · rw [ht.out]; cases st.opts.suppressOutput <;> simp
  · rw [ht.found]; simp
  · rw [ht.count, registered_total hck, Nat.zero_add]
  · obtain ⟨h1, h2, h3, -⟩ := hprov p hp
    exact ⟨h1, h2, h3⟩
  · rcases h.run.result with ⟨rfl, -⟩ | ⟨-, hcs, -⟩
    · exact absurd rfl he
    · cases fs with
      | nil => rfl
      | cons p fs => exact absurd hcs (hprov p (.head _)).2.2.2

theorem credited_id {f : Finding} {row : CheckRow} {id : Str} (hrow : row ∈ checkTable) (hf : f.result.severity ≠ 'F')
    (h : Credited id f) : id = row.id ↔ f.result.severity = row.sev ∧ f.result.checkId = row.num := by
  have inj : ∀ a ∈ checkTable, ∀ b ∈ checkTable, a.id = b.id ↔ a.sev = b.sev ∧ a.num = b.num := by
    have : ∀ x ∈ checkTable.map fun r => (r.sev, r.num), ∀ y ∈ checkTable.map fun r => (r.sev, r.num),
        [x.1, '-', Char.ofNat (48 + x.2 / 100 % 10), Char.ofNat (48 + x.2 / 10 % 10), Char.ofNat (48 + x.2 % 10)] =
        [y.1, '-', Char.ofNat (48 + y.2 / 100 % 10), Char.ofNat (48 + y.2 / 10 % 10), Char.ofNat (48 + y.2 % 10)] ↔
        x.1 = y.1 ∧ x.2 = y.2 := by
      simp only [checkTable, List.map_cons, List.map_nil]
      decide +kernel
    intro a ha b hb
    exact this _ (List.mem_map_of_mem ha) _ (List.mem_map_of_mem hb)
  obtain ⟨row', h1, rfl, h2 | h2⟩ := h
  · rw [inj row' h1 row hrow, h2.1, h2.2]
  · exact absurd h2.1 hf

section
variable {w : Machine} {args : List Opt} {paths : List Str} {r : MainResult}

/-- **C71 (not analysed).** If the command line or the configuration is not in order, nothing is
reported, and the exit status says why. -/
theorem C71_early (h : selintMain w args paths = .ok r) (hr : ¬Reaches w.config args paths.length) :
    r.findings = [] ∧ r.summary = none ∧
    ((r.status = 0 ∧ args.findSome? optStop = some 0) ∨
     (r.status = 64 ∧ args.findSome? optStop = some 64) ∨
     (r.status = 78 ∧ (∀ x ∈ args, optStop x = none) ∧
       ¬NamedConfigUnreadable w.config (optionsOf args) ∧ ConfigRejected w.config (optionsOf args)) ∨
     (r.status = 64 ∧ (∀ x ∈ args, optStop x = none) ∧
       (NamedConfigUnreadable w.config (optionsOf args) ∨
         (¬ConfigRejected w.config (optionsOf args) ∧
           ((Opt.onlyEnabled ∈ args ∧ ¬∃ id, Opt.enable id ∈ args) ∨ paths.length = 0))))) := by
  rcases selintMain_cases h with ⟨-, h1, h2, h3⟩ | ⟨h1, -⟩
  · refine ⟨h1, h2, ?_⟩
    rw [h3 (fun st => st.maps) (fun _ _ => ⟨.success, false⟩)]
    exact C08_early w.config _ _ args paths.length hr
  · exact absurd h1 hr

/-- **C71 (status).** If the analysis is reached: the exit status is EX_SOFTWARE (70), and then
nothing is reported; or it is EX_DATAERR (65) iff `--fail` was given and something was found, and
EX_OK (0) otherwise. Something was found iff a finding was printed, or would have been without
`--summary-only`; a summary is printed iff it was asked for, and it is empty iff nothing was
found. -/
theorem C71_status (h : selintMain w args paths = .ok r) (hr : Reaches w.config args paths.length) :
    (r.status = 70 ∧ r.findings = [] ∧ r.summary = none) ∨
    ∃ found : Prop, (found ∧ Opt.fail ∈ args → r.status = 65) ∧ (¬(found ∧ Opt.fail ∈ args) → r.status = 0) ∧
      (Opt.summaryOnly ∈ args → r.findings = []) ∧ (Opt.summaryOnly ∉ args → (found ↔ r.findings ≠ [])) ∧
      (r.summary.isSome ↔ Opt.summary ∈ args ∨ Opt.summaryOnly ∈ args) ∧
      ∀ ck, r.summary = some ck → (found ↔ ∃ fl, ∃ k ∈ ck fl, k.issuesFound ≠ 0) := by
  rcases selintMain_cases h with ⟨h1, -⟩ | ⟨-, st, s, ck, e, rs, A, ps, cs, h1, h2, h3, h4, h5, h6, h7, h8⟩
  · exact absurd hr h1
  obtain ⟨fs, hR⟩ := h5.reported h4
  have hsup : st.opts.suppressOutput = decide (Opt.summaryOnly ∈ args) := by rw [h2]; rfl
  have hflag : st.opts.summaryFlag = (decide (Opt.summary ∈ args) || decide (Opt.summaryOnly ∈ args)) := by rw [h2]; rfl
  have hfail : st.opts.failOnFinding = decide (Opt.fail ∈ args) := by rw [h2]; rfl
  by_cases he : e = .success
  · right
    subst he
    refine ⟨fs ≠ [], ?_, ?_, ?_, ?_, ?_, ?_⟩
    · rintro ⟨hf, ha⟩
      rw [h6, hfail]
      simp [exitStatus, exOk, exDataErr, ha, hR.found.2 hf]
    · intro hn
      rw [h6, hfail]
      have : (decide (Opt.fail ∈ args) && rs.rs.foundIssue) = false := by
        cases hf : rs.rs.foundIssue with
        | false => simp
        | true =>
          have := hR.found.1 hf
          simp only [Bool.and_true, decide_eq_false_iff_not]
          exact fun ha => hn ⟨this, ha⟩
      simp [exitStatus, exOk, this]
    · intro ha; rw [h7, hR.out, hsup]; simp [ha]
    · intro ha; rw [h7, hR.out, hsup]; simp [ha]
    · rw [h8, hflag]
      by_cases hx : Opt.summary ∈ args <;> by_cases hy : Opt.summaryOnly ∈ args <;> simp [hx, hy]
    · intro ck' hck
      rw [h8] at hck
      split at hck
      · cases hck
        constructor
        · intro hne
          obtain ⟨p, fs', rfl⟩ := List.exists_cons_of_ne_nil hne
          have hc := hR.count p.1
          have hpos : tallyOf p.1 (p :: fs') ≠ 0 := by simp [tallyOf]
          rw [← hc] at hpos
          unfold totalIssues at hpos
          have hex : ∃ n ∈ ((flatNodes rs.ck).filter fun k => decide (k.id = p.1)).map (·.issuesFound), n ≠ 0 := by
            apply Classical.byContradiction
            intro hno
            refine hpos (List.sum_eq_zero_iff_forall_eq_nat.2 fun n hn => ?_)
            apply Classical.byContradiction
            intro h0
            exact hno ⟨n, hn, h0⟩
          obtain ⟨n, hn, h0⟩ := hex
          simp only [List.mem_map, List.mem_filter, flatNodes, List.mem_flatMap] at hn
          obtain ⟨k, ⟨⟨fl, -, hk⟩, -⟩, rfl⟩ := hn
          exact ⟨fl, k, hk, h0⟩
        · rintro ⟨fl, k, hk, h0⟩ rfl
          have hc := hR.count k.id
          simp only [tallyOf, List.countP_nil] at hc
          unfold totalIssues at hc
          rw [List.sum_eq_zero_iff_forall_eq_nat] at hc
          refine h0 (hc _ (List.mem_map_of_mem (List.mem_filter.2 ⟨List.mem_flatMap.2 ⟨fl, ?_, hk⟩, by simp⟩)))
          cases fl <;> decide
      · cases hck
  · left
    have hfs := hR.error he
    refine ⟨?_, ?_, ?_⟩
    · rw [h6]
      cases e <;> first | exact absurd rfl he | simp [exitStatus, exSoftware, exOk]
    · rw [h7, hR.out, hfs]; simp
    · rw [h8, if_neg (fun h => he h.1)]

/-- **C71 (summary).** If a summary is printed besides the findings: each printed finding is
credited to one id, its own unless it is an internal error, and the number that the summary gives
for an id is the number of findings credited to it. -/
theorem C71_summary (h : selintMain w args paths = .ok r) {ck : Checks CheckFn} (hs : r.summary = some ck)
    (ho : Opt.summaryOnly ∉ args) {sorted : List (CheckNode CheckFn)} (hperm : sorted.Perm (flatNodes ck))
    (hsorted : sorted.Pairwise fun a b => compCheckIds a.id b.id ≤ 0) :
    ∃ ids : List Str, ids.length = r.findings.length ∧ (∀ p ∈ ids.zip r.findings, Credited p.1 p.2) ∧
      ∀ id n, (id, n) ∈ displayIssueCounts sorted ↔ n ≠ 0 ∧ n = ids.count id := by
  rcases selintMain_cases h with ⟨-, -, h1, -⟩ | ⟨-, st, s, ck', e, rs, A, ps, cs, h1, h2, h3, h4, h5, h6, h7, h8⟩
  · rw [h1] at hs; cases hs
  obtain ⟨fs, hR⟩ := h5.reported h4
  have hsup : st.opts.suppressOutput = decide (Opt.summaryOnly ∈ args) := by rw [h2]; rfl
  have hout : r.findings = fs.map (·.2) := by rw [h7, hR.out, hsup]; simp [ho]
  have hck : ck = rs.ck := by
    rw [h8] at hs
    split at hs
    · cases hs; rfl
    · cases hs
  refine ⟨fs.map (·.1), by rw [hout]; simp, ?_, ?_⟩
  · intro p hp
    rw [hout, List.zip_map'] at hp
    obtain ⟨q, hq, rfl⟩ := List.mem_map.1 hp
    exact (hR.credit q hq).1
  · have hids : ∀ fl, ∀ k ∈ ck fl, CanonId k.id := by
      intro fl k hk
      rw [hck] at hk
      obtain ⟨row, h1, -, h2, -⟩ := hR.hooks fl k hk
      rw [h2]; exact C07_applies row h1
    intro id n
    rw [(C07_summary ck sorted hids hperm hsorted).1 id n, hck, hR.count id]
    have : tallyOf id fs = (fs.map (·.1)).count id := by
      simp only [tallyOf, List.count, List.countP_map]
      refine List.countP_congr fun p _ => ?_
      simp
    rw [this]

/-- **C71 (summary, exact).** Without internal errors, the summary gives for each check the number
of lines printed with its id. -/
theorem C71_summary_exact (h : selintMain w args paths = .ok r) {ck : Checks CheckFn} (hs : r.summary = some ck)
    (ho : Opt.summaryOnly ∉ args) (hF : ∀ f ∈ r.findings, f.result.severity ≠ 'F') {row : CheckRow}
    (hrow : row ∈ checkTable) :
    totalIssues row.id (flatNodes ck) = r.findings.countP fun f =>
      decide (f.result.severity = row.sev ∧ f.result.checkId = row.num) := by
  rcases selintMain_cases h with ⟨-, -, h1, -⟩ | ⟨-, st, s, ck', e, rs, A, ps, cs, h1, h2, h3, h4, h5, h6, h7, h8⟩
  · rw [h1] at hs; cases hs
  obtain ⟨fs, hR⟩ := h5.reported h4
  have hsup : st.opts.suppressOutput = decide (Opt.summaryOnly ∈ args) := by rw [h2]; rfl
  have hout : r.findings = fs.map (·.2) := by rw [h7, hR.out, hsup]; simp [ho]
  have hck : ck = rs.ck := by
    rw [h8] at hs
    split at hs
    · cases hs; rfl
    · cases hs
  rw [hck, hR.count, hout, tallyOf, List.countP_map]
  refine List.countP_congr fun p hp => ?_
  simp only [Function.comp_apply, decide_eq_true_eq]
  exact credited_id hrow (hF p.2 (by rw [hout]; exact List.mem_map_of_mem hp)) (hR.credit p hp).1

end

/-! ## Which files are looked at -/

/-- The suffix of the files of a list. -/
def suffixOf : Which → Str
  | .te => cs!".te" | .ifs => cs!".if" | .fc => cs!".fc" | .cte => cs!".te" | .cif => cs!".if"

/-- The lists of `s'` have nothing but what is in the lists of `s` and visited paths with the right
suffix. -/
def Grows (s s' : Scan) (vs : List Str) : Prop :=
  ∀ l, ∀ p ∈ s'.filesOf l, p ∈ s.filesOf l ∨ (p ∈ vs ∧ HasSuffix (suffixOf l) p)

theorem Grows.refl (s : Scan) (vs : List Str) : Grows s s vs := fun _ _ h => .inl h

theorem Grows.trans {a b c : Scan} {u v t : List Str} (h1 : Grows a b u) (h2 : Grows b c v)
    (hu : ∀ p ∈ u, p ∈ t) (hv : ∀ p ∈ v, p ∈ t) : Grows a c t := by
  intro l p hp
  rcases h2 l p hp with h | ⟨h, h'⟩
  · rcases h1 l p h with h | ⟨h, h'⟩
    · exact .inl h
    · exact .inr ⟨hu p h, h'⟩
  · exact .inr ⟨hv p h, h'⟩

mutual
theorem ftsWalk_grows {visit : FtsEnt → Scan → Scan × Bool} (hv : ∀ e s, Grows s (visit e s).1 [e.path])
    (path name parent : Str) : (fs : Fs) → (s : Scan) → Grows s (ftsWalk visit path name parent fs s) (allVisits path fs)
  | .file, s => by
    unfold ftsWalk allVisits
    exact hv ⟨path, name, parent, .other⟩ s
  | .dir es, s => by
    unfold ftsWalk allVisits
    have h1 := hv ⟨path, name, parent, .d⟩ s
    have h3 := fun s => hv ⟨path, name, parent, .dp⟩ s
    refine (h1.trans (t := path :: (allVisitsIn path es ++ [path])) (v := allVisitsIn path es) ?_ (by simp) (by simp +contextual)).trans
      (h3 _) (fun p h => h) (by simp)
    split
    · exact .refl _ _
    · exact ftsWalkList_grows hv path name es _
theorem ftsWalkList_grows {visit : FtsEnt → Scan → Scan × Bool} (hv : ∀ e s, Grows s (visit e s).1 [e.path])
    (dp dn : Str) : (l : FsList) → (s : Scan) → Grows s (ftsWalkList visit dp dn l s) (allVisitsIn dp l)
  | .nil, s => by unfold ftsWalkList; exact .refl _ _
  | .cons n fs rest, s => by
    unfold ftsWalkList allVisitsIn
    exact (ftsWalk_grows hv (joinPath dp n) n dn fs s).trans (ftsWalkList_grows hv dp dn rest _)
      (by simp +contextual) (by simp +contextual)
end

theorem visitMain_grows (o : Options) (e : FtsEnt) (s : Scan) : Grows s (visitMain o e s).1 [e.path] := by
  obtain ⟨h1, h2, h3, h4, h5⟩ := C47_classify o e s
  intro l p hp
  cases l <;> simp only [Scan.filesOf, suffixOf] at hp ⊢
  · rw [h1, List.mem_append] at hp
    refine hp.imp id fun hp => ?_
    split at hp
    · rename_i hs; simp only [List.mem_singleton] at hp; subst hp; exact ⟨.head _, hs⟩
    · cases hp
  · rw [h2, List.mem_append] at hp
    refine hp.imp id fun hp => ?_
    split at hp
    · rename_i hs; simp only [List.mem_singleton] at hp; subst hp; exact ⟨.head _, hs⟩
    · cases hp
  · rw [h3, List.mem_append] at hp
    refine hp.imp id fun hp => ?_
    split at hp
    · rename_i hs; simp only [List.mem_singleton] at hp; subst hp; exact ⟨.head _, hs⟩
    · cases hp
  · rw [h4] at hp; exact .inl hp
  · rw [h5] at hp; exact .inl hp

theorem visitDevel_grows (e : FtsEnt) (s : Scan) : Grows s (visitDevel e s).1 [e.path] := by
  unfold visitDevel
  simp only [suffix3_iff _ _ (rfl : cs!".if".length = 3)]
  split
  · rename_i hs
    intro l p hp
    cases l <;> first | exact .inl hp | skip
    simp only [Scan.filesOf, List.mem_append, List.mem_singleton] at hp ⊢
    rcases hp with hp | hp
    · exact .inl hp
    · subst hp; exact .inr ⟨rfl, hs⟩
  · exact .refl _ _

theorem scanMain_grows (o : Options) (roots : List (Str × Fs)) (s : Scan) :
    Grows s (scanMain o roots s) (roots.flatMap fun r => allVisits r.1 r.2) := by
  unfold scanMain
  induction roots generalizing s with
  | nil => exact .refl _ _
  | cons r rs ih =>
    rw [List.foldl_cons, List.flatMap_cons]
    exact (ftsWalk_grows (visitMain_grows o) r.1 (baseName r.1) [] r.2 s).trans (ih _)
      (by simp +contextual) (fun p hp => List.mem_append_right _ hp)

mutual
theorem ftsWalk_inv {σ : Type} {visit : FtsEnt → σ → σ × Bool} {P : σ → Prop} (hv : ∀ e s, P s → P (visit e s).1)
    (path name parent : Str) : (fs : Fs) → (s : σ) → P s → P (ftsWalk visit path name parent fs s)
  | .file, s, h => by unfold ftsWalk; exact hv _ _ h
  | .dir es, s, h => by
    unfold ftsWalk
    refine hv _ _ ?_
    split
    · exact hv _ _ h
    · exact ftsWalkList_inv hv path name es _ (hv _ _ h)
theorem ftsWalkList_inv {σ : Type} {visit : FtsEnt → σ → σ × Bool} {P : σ → Prop} (hv : ∀ e s, P s → P (visit e s).1)
    (dp dn : Str) : (l : FsList) → (s : σ) → P s → P (ftsWalkList visit dp dn l s)
  | .nil, s, h => by unfold ftsWalkList; exact h
  | .cons n fs rest, s, h => by
    unfold ftsWalkList
    exact ftsWalkList_inv hv dp dn rest _ (ftsWalk_inv hv _ _ _ fs s h)
end

theorem loadDevelHeaders_lists (devel : Option Fs) (s : Scan) :
    (loadDevelHeaders devel s).te = s.te ∧ (loadDevelHeaders devel s).ifs = s.ifs ∧
    (loadDevelHeaders devel s).fc = s.fc ∧ (loadDevelHeaders devel s).contextTe = s.contextTe ∧
    ∀ p ∈ (loadDevelHeaders devel s).contextIf, p ∈ s.contextIf ∨ HasSuffix cs!".if" p := by
  cases devel with
  | none => exact ⟨rfl, rfl, rfl, rfl, fun p hp => .inl hp⟩
  | some fs =>
    have h1 := ftsWalk_inv (visit := visitDevel)
      (P := fun s' => s'.te = s.te ∧ s'.ifs = s.ifs ∧ s'.fc = s.fc ∧ s'.contextTe = s.contextTe)
      (fun e s' h => by unfold visitDevel; split <;> exact h) cs!"/usr/share/selinux/devel" cs!"devel" [] fs s
      ⟨rfl, rfl, rfl, rfl⟩
    have h2 := ftsWalk_grows visitDevel_grows cs!"/usr/share/selinux/devel" cs!"devel" [] fs s .cif
    exact ⟨h1.1, h1.2.1, h1.2.2.1, h1.2.2.2, fun p hp => (h2 p hp).imp id fun h => h.2⟩

/-- The lists after loading the support files: only context files may have been added. -/
theorem loadSupport_lists {w : Machine} {o : Options} {s s' : Scan} (h : loadSupport w o s = .ok s') :
    s'.te = s.te ∧ s'.ifs = s.ifs ∧ s'.fc = s.fc ∧ s'.contextTe = s.contextTe ∧
    ∀ p ∈ s'.contextIf, p ∈ s.contextIf ∨ HasSuffix cs!".if" p := by
  unfold loadSupport at h
  split at h
  · cases h1 : ifFound s.accessVectors (loadSupportFile w .avFile) s.maps with
    | ub => rw [h1] at h; cases h
    | ok m1 =>
    rw [h1, Res.bind_ok] at h
    cases h2 : ifFound s.modulesConf (loadModules w) m1 with
    | ub => rw [h2] at h; cases h
    | ok m2 =>
    rw [h2, Res.bind_ok] at h
    cases h3 : ifFound s.objPermSets (loadSupportFile w .sptFile) m2 with
    | ub => rw [h3] at h; cases h
    | ok m3 =>
    rw [h3, Res.bind_ok] at h
    cases h
    exact ⟨rfl, rfl, rfl, rfl, fun p hp => .inl hp⟩
  · cases h
    exact loadDevelHeaders_lists _ _

/-- The files that are checked are those the scan found; all the files of a run have the suffix of
their list; those that are checked are below the paths of the command line. -/
theorem files_suffix {w : Machine} {st : Settings} {paths : List Str} {s : Scan}
    (h : loadSupport w st.opts (collect w st paths) = .ok s) :
    (∀ l, ∀ p ∈ s.filesOf l, HasSuffix (suffixOf l) p) ∧
    s.te = (scanMain st.opts (paths.map fun p => (p, w.fs p)) { maps := st.maps }).te ∧
    s.ifs = (scanMain st.opts (paths.map fun p => (p, w.fs p)) { maps := st.maps }).ifs ∧
    s.fc = (scanMain st.opts (paths.map fun p => (p, w.fs p)) { maps := st.maps }).fc ∧
    ∀ l, l = .te ∨ l = .ifs ∨ l = .fc → ∀ p ∈ s.filesOf l, ∃ root ∈ paths, p ∈ allVisits root (w.fs root) := by
  obtain ⟨l1, l2, l3, l4, l5⟩ := loadSupport_lists h
  have hg := scanMain_grows st.opts (paths.map fun p => (p, w.fs p)) { maps := st.maps }
  obtain ⟨c1, c2, c3, c4, c5⟩ := C47_context st.opts (st.opts.contextPaths.map fun p => (p, w.fs p))
    (scanMain st.opts (paths.map fun p => (p, w.fs p)) { maps := st.maps })
  have e1 : s.te = (scanMain st.opts (paths.map fun p => (p, w.fs p)) { maps := st.maps }).te := l1.trans c1
  have e2 : s.ifs = (scanMain st.opts (paths.map fun p => (p, w.fs p)) { maps := st.maps }).ifs := l2.trans c2
  have e3 : s.fc = (scanMain st.opts (paths.map fun p => (p, w.fs p)) { maps := st.maps }).fc := l3.trans c3
  have hno : ∀ l, ∀ p, p ∉ ({ maps := st.maps } : Scan).filesOf l := by
    intro l p hp; cases l <;> cases hp
  have key : ∀ l, ∀ p ∈ (scanMain st.opts (paths.map fun p => (p, w.fs p)) { maps := st.maps }).filesOf l,
      HasSuffix (suffixOf l) p ∧ ∃ root ∈ paths, p ∈ allVisits root (w.fs root) := by
    intro l p hp
    rcases hg l p hp with h | ⟨h, h'⟩
    · exact absurd h (hno l p)
    · refine ⟨h', ?_⟩
      simp only [List.mem_flatMap, List.mem_map] at h
      obtain ⟨r, ⟨root, h1, rfl⟩, h2⟩ := h
      exact ⟨root, h1, h2⟩
  have hte : ∀ p ∈ s.te, HasSuffix cs!".te" p ∧ ∃ root ∈ paths, p ∈ allVisits root (w.fs root) :=
    fun p hp => key .te p (by rw [e1] at hp; exact hp)
  have hif : ∀ p ∈ s.ifs, HasSuffix cs!".if" p ∧ ∃ root ∈ paths, p ∈ allVisits root (w.fs root) :=
    fun p hp => key .ifs p (by rw [e2] at hp; exact hp)
  have hfc : ∀ p ∈ s.fc, HasSuffix cs!".fc" p ∧ ∃ root ∈ paths, p ∈ allVisits root (w.fs root) :=
    fun p hp => key .fc p (by rw [e3] at hp; exact hp)
  refine ⟨fun l p hp => ?_, e1, e2, e3, fun l hl p hp => ?_⟩
  · cases l with
    | te => exact (hte p hp).1
    | ifs => exact (hif p hp).1
    | fc => exact (hfc p hp).1
    | cte =>
      have hp' : p ∈ s.contextTe := hp
      rw [l4] at hp'
      unfold collect at hp'
      rw [c4, List.mem_append] at hp'
      rcases hp' with h | h
      · exact (key .cte p h).1
      · simp only [List.mem_filter, bySuffix, decide_eq_true_eq] at h
        exact h.1.2
    | cif =>
      rcases l5 p hp with h | h
      · unfold collect at h
        rw [c5, List.mem_append] at h
        rcases h with h | h
        · exact (key .cif p h).1
        · simp only [List.mem_filter, bySuffix, decide_eq_true_eq] at h
          exact h.1.2
      · exact h
  · rcases hl with rfl | rfl | rfl
    · exact (hte p hp).2
    · exact (hif p hp).2
    · exact (hfc p hp).2

section
variable {w : Machine} {args : List Opt} {paths : List Str} {r : MainResult}

/-- **C71 (files).** Every finding that is printed names a te, if or fc file below a path of the
command line (never a file that was only read for context), and is of a kind that the chosen level
and the configuration let through. -/
theorem C71_files (h : selintMain w args paths = .ok r) (f : Finding) (hf : f ∈ r.findings) :
    (∃ root ∈ paths, ∃ p ∈ allVisits root (w.fs root),
      (HasSuffix cs!".te" p ∨ HasSuffix cs!".if" p ∨ HasSuffix cs!".fc" p) ∧ f.filename = basename p) ∧
    ∃ st m, settings w.config (optionsOf args) paths.length = .go st ∧ MayPrint st.severity st.enableConf m f := by
  rcases selintMain_cases h with ⟨-, h1, -⟩ | ⟨-, st, s, ck', e, rs, A, ps, cs, h1, h2, h3, h4, h5, h6, h7, h8⟩
  · rw [h1] at hf; cases hf
  obtain ⟨fs, hR⟩ := h5.reported h4
  rw [h7, hR.out] at hf
  split at hf
  · cases hf
  · obtain ⟨p, hp, rfl⟩ := List.mem_map.1 hf
    obtain ⟨-, hm, n, hn, he⟩ := hR.credit p hp
    obtain ⟨f1, -, -, -, f2⟩ := files_suffix h3
    refine ⟨?_, st, s.maps, h1, hm⟩
    simp only [List.mem_append] at hn
    rcases hn with (hn | hn) | hn
    · obtain ⟨root, h9, h10⟩ := f2 .te (.inl rfl) n hn
      exact ⟨root, h9, n, h10, .inl (f1 .te n hn), he⟩
    · obtain ⟨root, h9, h10⟩ := f2 .ifs (.inr (.inl rfl)) n hn
      exact ⟨root, h9, n, h10, .inr (.inl (f1 .ifs n hn)), he⟩
    · obtain ⟨root, h9, h10⟩ := f2 .fc (.inr (.inr rfl)) n hn
      exact ⟨root, h9, n, h10, .inr (.inr (f1 .fc n hn)), he⟩

end

/-! ## Which files can be parsed -/

/-- A file of this content may be read as this kind of file. -/
def Spec.OfKind (kind : PlainFlavor) : SourceFile → Prop
  | .te .. => kind = .teFile
  | .iface .. => kind = .ifFile
  | .spt .. => kind = .sptFile
  | .av _ d ls => kind = .avFile ∨ ∀ o ∈ some d :: ls, ∀ x ∈ o, ∃ n ps, x = .common n ps
  | .empty => True
  | .comments .. => True

/-- The file can be read, and a te or if file follows the grammar of its kind. -/
def Spec.Parseable (src : Sources) (n : Str) : NodeFlavor → Prop
  | .teFile => ∃ s f, src.text n = some s ∧ ParsesTo s f ∧ OfKind .teFile f
  | .ifFile => ∃ s f, src.text n = some s ∧ ParsesTo s f ∧ OfKind .ifFile f
  | .fcFile => ∃ ls, src.fcLines n = some ls
  | _ => False

theorem exec_ofKind (f : SourceFile) (kind : PlainFlavor) (mod : Str) (m : Maps) :
    f.exec kind mod m ≠ .ok none ↔ OfKind kind f ∨ f.exec kind mod m = .ub := by
  cases f with
  | te cs h b =>
    simp only [SourceFile.exec, OfKind]
    split
    · rename_i hk; simp [hk]
    · rename_i hk
      simp only [ne_eq, Decidable.not_not] at hk
      simp only [hk, true_or, iff_true]
      cases h1 : b.exec ((execComments cs (PState.init .teFile mod m)).insertHeader h.name
        (if h.isMacro then .macro else .bare) h.line) <;> simp
  | iface cs d ls =>
    simp only [SourceFile.exec, OfKind]
    split
    · rename_i hk; simp [hk]
    · rename_i hk
      simp only [ne_eq, Decidable.not_not] at hk
      simp only [hk, true_or, iff_true]
      cases h1 : d.exec (execComments cs (PState.init .ifFile mod m)) with
      | ub => simp
      | ok st => simp only [Res.bind_ok]; cases h2 : execIfLines ls st <;> simp
  | spt cs d ls =>
    simp only [SourceFile.exec, OfKind]
    split <;> simp_all
  | av cs d ls =>
    simp only [SourceFile.exec, OfKind]
    have key : (some d :: ls).any (fun o => o.any AvDef.isClass) = false ↔
        ∀ o ∈ some d :: ls, ∀ x ∈ o, ∃ n ps, x = .common n ps := by
      rw [List.any_eq_false]
      refine forall₂_congr fun o _ => ?_
      cases o with
      | none => simp
      | some x => cases x <;> simp [AvDef.isClass]
    rw [← key]
    split
    · rename_i h; simp [h.1, h.2]
    · rename_i h
      simp only [ne_eq, reduceCtorEq, not_false_eq_true, Res.ok.injEq, or_false, true_iff]
      by_cases hk : kind = .avFile
      · exact .inl hk
      · exact .inr (by simpa [hk] using h)
  | empty => simp [SourceFile.exec, OfKind]
  | comments c cs => simp [SourceFile.exec, OfKind]

theorem Loc.unzip_ne_nil (l : Loc) : l.unzip ≠ [] := by
  intro h
  have := l.mem_locs_unzip
  rw [h] at this
  simp [Tree.locsList] at this

section
variable {src : Sources} {suppress : Bool} {config : ConfigCheckData}

theorem parseOneFile_parseable {n : Str} {kind : PlainFlavor} {m : Maps}
    (hdef : ∃ r, parseOneFile src n kind m = .ok r) :
    (parseResult m (parseOneFile src n kind m)).1 ≠ [] ↔
      ∃ s f, src.text n = some s ∧ ParsesTo s f ∧ OfKind kind f := by
  obtain ⟨r, hr⟩ := hdef
  rw [hr]
  constructor
  · intro hne
    cases r with
    | none => exact absurd rfl hne
    | some x =>
      obtain ⟨ts, m'⟩ := x
      obtain ⟨s, f, mod, st, h1, h2, h3, -⟩ := parseOneFile_accepted hr
      refine ⟨s, f, h1, h2, ?_⟩
      rcases (exec_ofKind f kind mod m).1 (by rw [h3]; simp) with h | h
      · exact h
      · rw [h3] at h; cases h
  · rintro ⟨s, f, h1, h2, h3⟩
    obtain ⟨ts, g, h4, h5, h6⟩ := C68_text h2
    unfold parseOneFile at hr
    cases hm : moduleOfFile n with
    | ub => rw [hm] at hr; cases hr
    | ok mod =>
      rw [hm] at hr
      simp only [Res.bind_ok, h1, h4, Option.bind_some, h5, h6] at hr
      cases he : f.exec kind mod m with
      | ub => rw [he] at hr; cases hr
      | ok o =>
        rw [he] at hr
        simp only [Res.bind_ok] at hr
        cases o with
        | none => exact absurd he ((exec_ofKind f kind mod m).2 (.inl h3))
        | some st => cases hr; exact Loc.unzip_ne_nil _

theorem parser_parseable {n : Str} {fl : NodeFlavor} {m : Maps} (hfl : fl = .ifFile ∨ fl = .teFile ∨ fl = .fcFile)
    (hdef : undefinedFile src fl n m = false) :
    ((wholeProgram src suppress config).parser fl n m).1 ≠ [] ↔ Parseable src n fl := by
  rcases hfl with rfl | rfl | rfl
  · exact parseOneFile_parseable (by
      simp only [undefinedFile] at hdef
      cases h : parseOneFile src n .ifFile m with
      | ub => rw [h] at hdef; cases hdef
      | ok x => exact ⟨x, rfl⟩)
  · exact parseOneFile_parseable (by
      simp only [undefinedFile] at hdef
      cases h : parseOneFile src n .teFile m with
      | ub => rw [h] at hdef; cases hdef
      | ok x => exact ⟨x, rfl⟩)
  · obtain ⟨x, hx⟩ : ∃ x, parseFcFile src.fcMacros (src.fcLines n) = .ok x := by
      simp only [undefinedFile] at hdef
      cases h : parseFcFile src.fcMacros (src.fcLines n) with
      | ub => rw [h] at hdef; cases hdef
      | ok x => exact ⟨x, rfl⟩
    simp only [Program.parser, wholeProgram, if_true, hx, Parseable]
    cases hl : src.fcLines n with
    | none => rw [hl] at hx; cases hx; simp
    | some ls =>
      rw [hl] at hx
      cases x with
      | none =>
        simp only [parseFcFile] at hx
        cases h : parseFcLines src.fcMacros ls 0 <;> rw [h] at hx <;> cases hx
      | some ns =>
        obtain ⟨b, rfl, -⟩ := C37_lines _ _ _ hx
        simp [fcForest]

/-- The parses of a log whose parses are defined. -/
theorem log_parseable {ps post : List Event} {m : Maps}
    (hg : Genuine (wholeProgram src suppress config) ps m)
    (hu : undefinedParse src suppress config (ps ++ post) m = false) {a : Nat} {n : Str} {fl : NodeFlavor}
    {ast : List Tree} (hm : .parse a n fl ast ∈ ps) (hfl : fl = .ifFile ∨ fl = .teFile ∨ fl = .fcFile) :
    ast ≠ [] ↔ Parseable src n fl := by
  induction ps generalizing m with
  | nil => cases hm
  | cons ev ps ih =>
    cases ev with
    | parse a' n' fl' ast' =>
      simp only [List.cons_append, undefinedParse, Bool.or_eq_false_iff] at hu
      rcases List.mem_cons.1 hm with e | hm'
      · cases e
        rw [hg.1]
        exact parser_parseable hfl hu.1
      · exact ih hg.2 hu.2 hm'
    | mark => exact ih hg hu ((List.mem_cons.1 hm).resolve_left (by simp))
    | check => exact ih hg hu ((List.mem_cons.1 hm).resolve_left (by simp))
    | cleanup => exact ih hg hu ((List.mem_cons.1 hm).resolve_left (by simp))

end

/-- The flavor with which the files of a list are parsed. -/
def flavorOf : Which → NodeFlavor
  | .te => .teFile | .ifs => .ifFile | .fc => .fcFile | .cte => .teFile | .cif => .ifFile

theorem Analysed.parse_error {w : Machine} {st : Settings} {s : Scan} {ck : Checks CheckFn} {e : SelintError}
    {rs : RunnerState CheckFn (Res Statics)} {A : Which → List Nat} {ps cs : List Event}
    (h : Analysed w st s ck e rs A ps cs) :
    e ≠ .success ↔ ∃ l, ∃ p ∈ s.filesOf l, ¬Parseable (w.sources st.customFcMacros) p (flavorOf l) := by
  have hlog : rs.log = ps ++ (cs ++ [.cleanup]) := by rw [h.run.log]; simp
  have hu := h.defined
  rw [hlog] at hu
  have key : ∀ {a n fl ast}, Event.parse a n fl ast ∈ ps → (ast ≠ [] ↔ Parseable (w.sources st.customFcMacros) n fl) ∧
      ∃ l, flavorOf l = fl ∧ a ∈ A l ∧ n ∈ s.filesOf l := by
    intro a n fl ast hm
    obtain ⟨-, -, ⟨c, hc, rfl⟩, hn⟩ := h.run.noCheck _ hm
    refine ⟨log_parseable h.run.genuine hu hm (hn.imp And.left (Or.imp And.left And.left)), ?_⟩
    simp only [List.mem_append] at hn
    rcases hn with ⟨rfl, hn | hn⟩ | ⟨rfl, hn | hn⟩ | ⟨rfl, hn⟩
    · exact ⟨.ifs, rfl, hn, h.name_mem hn hc⟩
    · exact ⟨.cif, rfl, hn, h.name_mem hn hc⟩
    · exact ⟨.te, rfl, hn, h.name_mem hn hc⟩
    · exact ⟨.cte, rfl, hn, h.name_mem hn hc⟩
    · exact ⟨.fc, rfl, hn, h.name_mem hn hc⟩
  constructor
  · intro he
    rcases h.run.result with ⟨h1, -⟩ | ⟨-, -, ev, h1, h2⟩
    · exact absurd h1 he
    · cases ev with
      | parse a n fl ast =>
        obtain ⟨k1, l, rfl, -, k2⟩ := key h1
        exact ⟨l, n, k2, fun hp => k1.2 hp h2⟩
      | _ => cases h2
  · rintro ⟨l, p, hp, hnp⟩ rfl
    rcases h.run.result with ⟨-, h1, h2, -⟩ | ⟨h1, -⟩
    · have hp' : some p ∈ (s.filesOf l).map some := List.mem_map_of_mem hp
      rw [← h.names l] at hp'
      obtain ⟨a, ha, hx⟩ := List.mem_map.1 hp'
      obtain ⟨c, hc, rfl⟩ := Option.map_eq_some_iff.1 hx
      have hcell : a ∈ parsedCells ps := by
        rw [h1]; simp only [List.mem_append]; cases l <;> simp [ha]
      obtain ⟨ev, hev, he⟩ := List.mem_filterMap.1 hcell
      cases ev with
      | parse a' n fl ast =>
        cases he
        obtain ⟨k1, l', hl, k2, -⟩ := key hev
        obtain ⟨-, -, ⟨c', hc', rfl⟩, -⟩ := h.run.noCheck _ hev
        cases hc.symm.trans hc'
        have : l' = l := by
          apply Classical.byContradiction
          intro hne
          have hnd := h.world.nodup
          simp only [List.nodup_append, List.mem_append] at hnd
          obtain ⟨⟨⟨⟨_, _, d1⟩, _, d2⟩, _, d3⟩, _, d4⟩ := hnd
          cases l <;> cases l' <;> first | exact hne rfl | skip
          all_goals first
            | exact d1 a ha a k2 rfl | exact d1 a k2 a ha rfl
            | exact d2 a (.inl ha) a k2 rfl | exact d2 a (.inl k2) a ha rfl
            | exact d2 a (.inr ha) a k2 rfl | exact d2 a (.inr k2) a ha rfl
            | exact d3 a (.inl (.inl ha)) a k2 rfl | exact d3 a (.inl (.inl k2)) a ha rfl
            | exact d3 a (.inl (.inr ha)) a k2 rfl | exact d3 a (.inl (.inr k2)) a ha rfl
            | exact d3 a (.inr ha) a k2 rfl | exact d3 a (.inr k2) a ha rfl
            | exact d4 a (.inl (.inl (.inl ha))) a k2 rfl | exact d4 a (.inl (.inl (.inl k2))) a ha rfl
            | exact d4 a (.inl (.inl (.inr ha))) a k2 rfl | exact d4 a (.inl (.inl (.inr k2))) a ha rfl
            | exact d4 a (.inl (.inr ha)) a k2 rfl | exact d4 a (.inl (.inr k2)) a ha rfl
            | exact d4 a (.inr ha) a k2 rfl | exact d4 a (.inr k2) a ha rfl
        subst this
        rw [hl] at hnp
        exact hnp (k1.1 (h2 _ hev))
      | _ => cases he
    · cases h1

/-- The files that a run with `-r` reads, and what it reads them as: the policy files below the paths
that are not hidden, the te and if files below the context paths, and the if files among the
development headers unless the source of a policy is checked. -/
inductive Spec.ReadsFile (w : Machine) (args : List Opt) (paths : List Str) : NodeFlavor → Str → Prop
  | path {root suf p fl} : root ∈ paths →
      p ∈ visibleFiles (decide (Opt.scanHiddenDirs ∈ args)) root (baseName root) (w.fs root) → HasSuffix suf p →
      (suf, fl) ∈ [(cs!".te", NodeFlavor.teFile), (cs!".if", .ifFile), (cs!".fc", .fcFile)] → ReadsFile w args paths fl p
  | context {root suf p fl} : Opt.context root ∈ args → p ∈ allVisits root (w.fs root) → HasSuffix suf p →
      (suf, fl) ∈ [(cs!".te", NodeFlavor.teFile), (cs!".if", .ifFile)] → ReadsFile w args paths fl p
  | devel {fs p} : (optionsOf args).sourceFlag = false → w.devel = some fs →
      p ∈ allVisits cs!"/usr/share/selinux/devel" fs → HasSuffix cs!".if" p → ReadsFile w args paths .ifFile p

theorem devel_visit (e : FtsEnt) (s : Scan) :
    (visitDevel e s).1.contextIf = s.contextIf ++ bySuffix cs!".if" [e.path] := by
  unfold visitDevel
  simp only [suffix3_iff _ _ (rfl : cs!".if".length = 3), bySuffix_single]
  split <;> simp

theorem scanMain_contexts (o : Options) (roots : List (Str × Fs)) (s : Scan) :
    (scanMain o roots s).contextTe = s.contextTe ∧ (scanMain o roots s).contextIf = s.contextIf := by
  unfold scanMain
  induction roots generalizing s with
  | nil => exact ⟨rfl, rfl⟩
  | cons r rs ih =>
    rw [List.foldl_cons]
    have := ftsWalk_inv (visit := visitMain o)
      (P := fun s' => s'.contextTe = s.contextTe ∧ s'.contextIf = s.contextIf)
      (fun e s' h => by
        obtain ⟨-, -, -, h4, h5⟩ := C47_classify o e s'
        exact ⟨h4.trans h.1, h5.trans h.2⟩) r.1 (baseName r.1) [] r.2 s ⟨rfl, rfl⟩
    exact ⟨(ih _).1.trans this.1, (ih _).2.trans this.2⟩

mutual
theorem devel_walk (path name parent : Str) : (fs : Fs) → (s : Scan) →
    (ftsWalk visitDevel path name parent fs s).contextIf = s.contextIf ++ bySuffix cs!".if" (allVisits path fs)
  | .file, s => by
    unfold ftsWalk allVisits
    exact devel_visit _ s
  | .dir es, s => by
    unfold ftsWalk allVisits
    have hp : ∀ e t, (visitDevel e t).2 = false := by intro e t; unfold visitDevel; split <;> rfl
    simp only [hp, Bool.false_eq_true, if_false]
    rw [devel_visit, devel_walk_list, devel_visit]
    show _ = _ ++ bySuffix _ ([path] ++ (allVisitsIn path es ++ [path]))
    rw [bySuffix_append, bySuffix_append, List.append_assoc, List.append_assoc]
theorem devel_walk_list (dp dn : Str) : (l : FsList) → (s : Scan) →
    (ftsWalkList visitDevel dp dn l s).contextIf = s.contextIf ++ bySuffix cs!".if" (allVisitsIn dp l)
  | .nil, s => by unfold ftsWalkList allVisitsIn; simp [bySuffix]
  | .cons n fs rest, s => by
    unfold ftsWalkList allVisitsIn
    rw [devel_walk_list, devel_walk, bySuffix_append, List.append_assoc]
end

theorem loadSupport_contextIf {w : Machine} {o : Options} {s s' : Scan} (h : loadSupport w o s = .ok s') (p : Str) :
    p ∈ s'.contextIf ↔ p ∈ s.contextIf ∨ o.sourceFlag = false ∧ ∃ fs, w.devel = some fs ∧
      p ∈ allVisits cs!"/usr/share/selinux/devel" fs ∧ HasSuffix cs!".if" p := by
  unfold loadSupport at h
  split at h
  · rename_i hs
    cases h1 : ifFound s.accessVectors (loadSupportFile w .avFile) s.maps with
    | ub => rw [h1] at h; cases h
    | ok m1 =>
    rw [h1, Res.bind_ok] at h
    cases h2 : ifFound s.modulesConf (loadModules w) m1 with
    | ub => rw [h2] at h; cases h
    | ok m2 =>
    rw [h2, Res.bind_ok] at h
    cases h3 : ifFound s.objPermSets (loadSupportFile w .sptFile) m2 with
    | ub => rw [h3] at h; cases h
    | ok m3 =>
    rw [h3, Res.bind_ok] at h
    cases h
    simp [hs]
  · rename_i hs
    cases h
    simp only [Bool.not_eq_true] at hs
    unfold loadDevelHeaders
    cases w.devel with
    | none => simp
    | some fs => simp [devel_walk, bySuffix, hs]

/-- The lists of a run with `-r`. -/
theorem reads_iff {w : Machine} {args : List Opt} {st : Settings} {paths : List Str} {s : Scan}
    (h : loadSupport w st.opts (collect w st paths) = .ok s) (ho : st.opts = optionsOf args)
    (hr : Opt.recursive ∈ args)
    (hp : ∀ root ∈ paths, PlainDirs (optionsOf args).sourceFlag root (baseName root) (w.fs root)) (fl : NodeFlavor)
    (p : Str) : ReadsFile w args paths fl p ↔ ∃ l, flavorOf l = fl ∧ p ∈ s.filesOf l := by
  obtain ⟨l1, l2, l3, l4, -⟩ := loadSupport_lists h
  have l5 := loadSupport_contextIf h
  obtain ⟨c1, c2, c3, c4, c5⟩ := C47_context st.opts (st.opts.contextPaths.map fun p => (p, w.fs p))
    (scanMain st.opts (paths.map fun p => (p, w.fs p)) { maps := st.maps })
  have hg := scanMain_contexts st.opts (paths.map fun p => (p, w.fs p)) { maps := st.maps }
  obtain ⟨e1, e2, e3⟩ := C47_recursive st.opts (by rw [ho]; simp [optionsOf, hr]) (paths.map fun p => (p, w.fs p))
    (by
      intro r hm0
      obtain ⟨root, hm, rfl⟩ := List.mem_map.1 hm0
      rw [ho]; exact hp root hm) st.maps
  rw [hg.1, List.nil_append] at c4
  rw [hg.2, List.nil_append] at c5
  have hc : ∀ root, root ∈ st.opts.contextPaths ↔ Opt.context root ∈ args := by
    intro root
    rw [ho]
    simp only [optionsOf, List.mem_filterMap]
    constructor
    · rintro ⟨a, ha, he⟩
      split at he
      · cases he; exact ha
      · cases he
    · intro ha; exact ⟨_, ha, rfl⟩
  have hh : st.opts.scanHiddenDirs = decide (Opt.scanHiddenDirs ∈ args) := by rw [ho]; rfl
  have m1 : ∀ suf, p ∈ bySuffix suf ((paths.map fun p => (p, w.fs p)).flatMap fun r =>
      visibleFiles st.opts.scanHiddenDirs r.1 (baseName r.1) r.2) ↔
      ∃ root ∈ paths, p ∈ visibleFiles (decide (Opt.scanHiddenDirs ∈ args)) root (baseName root) (w.fs root) ∧
        HasSuffix suf p := by
    intro suf
    rw [hh]
    simp only [bySuffix, List.mem_filter, List.mem_flatMap, List.mem_map, decide_eq_true_eq]
    constructor
    · rintro ⟨⟨r, ⟨root, h1, rfl⟩, h2⟩, h3⟩; exact ⟨root, h1, h2, h3⟩
    · rintro ⟨root, h1, h2, h3⟩; exact ⟨⟨_, ⟨root, h1, rfl⟩, h2⟩, h3⟩
  have m2 : ∀ suf, p ∈ bySuffix suf ((st.opts.contextPaths.map fun p => (p, w.fs p)).flatMap fun r =>
      allVisits r.1 r.2) ↔ ∃ root, Opt.context root ∈ args ∧ p ∈ allVisits root (w.fs root) ∧ HasSuffix suf p := by
    intro suf
    simp only [bySuffix, List.mem_filter, List.mem_flatMap, List.mem_map, decide_eq_true_eq]
    constructor
    · rintro ⟨⟨r, ⟨root, h1, rfl⟩, h2⟩, h3⟩; exact ⟨root, (hc root).1 h1, h2, h3⟩
    · rintro ⟨root, h1, h2, h3⟩; exact ⟨⟨_, ⟨root, (hc root).2 h1, rfl⟩, h2⟩, h3⟩
  have f1 := m1 cs!".te"
  rw [← e1, ← c1, ← collect, ← l1] at f1
  have f2 := m1 cs!".if"
  rw [← e2, ← c2, ← collect, ← l2] at f2
  have f3 := m1 cs!".fc"
  rw [← e3, ← c3, ← collect, ← l3] at f3
  have f4 : p ∈ s.contextTe ↔ (∃ root, Opt.context root ∈ args ∧ p ∈ allVisits root (w.fs root) ∧
      HasSuffix cs!".te" p) ∧ p ∉ s.te := by
    rw [l4, collect, c4, List.mem_filter, m2, l1, collect, c1]
    simp
  have f5 : p ∈ (collect w st paths).contextIf ↔ (∃ root, Opt.context root ∈ args ∧ p ∈ allVisits root (w.fs root) ∧
      HasSuffix cs!".if" p) ∧ p ∉ s.ifs := by
    rw [collect, c5, List.mem_filter, m2, l2, collect, c2]
    simp
  have l5' := l5 p
  rw [ho] at l5'
  constructor
  · rintro (⟨h1, h2, h3, h4⟩ | ⟨h1, h2, h3, h4⟩ | ⟨h1, h2, h3, h4⟩)
    · simp only [List.mem_cons, List.not_mem_nil, or_false, Prod.mk.injEq] at h4
      rcases h4 with ⟨rfl, rfl⟩ | ⟨rfl, rfl⟩ | ⟨rfl, rfl⟩
      · exact ⟨.te, rfl, f1.2 ⟨_, h1, h2, h3⟩⟩
      · exact ⟨.ifs, rfl, f2.2 ⟨_, h1, h2, h3⟩⟩
      · exact ⟨.fc, rfl, f3.2 ⟨_, h1, h2, h3⟩⟩
    · simp only [List.mem_cons, List.not_mem_nil, or_false, Prod.mk.injEq] at h4
      rcases h4 with ⟨rfl, rfl⟩ | ⟨rfl, rfl⟩
      · by_cases hx : p ∈ s.te
        · exact ⟨.te, rfl, hx⟩
        · exact ⟨.cte, rfl, f4.2 ⟨⟨_, h1, h2, h3⟩, hx⟩⟩
      · by_cases hx : p ∈ s.ifs
        · exact ⟨.ifs, rfl, hx⟩
        · exact ⟨.cif, rfl, l5'.2 (.inl (f5.2 ⟨⟨_, h1, h2, h3⟩, hx⟩))⟩
    · exact ⟨.cif, rfl, l5'.2 (.inr ⟨h1, _, h2, h3, h4⟩)⟩
  · rintro ⟨l, rfl, hm⟩
    cases l with
    | te => obtain ⟨_, h1, h2, h3⟩ := f1.1 hm; exact .path h1 h2 h3 (by simp [flavorOf])
    | ifs => obtain ⟨_, h1, h2, h3⟩ := f2.1 hm; exact .path h1 h2 h3 (by simp [flavorOf])
    | fc => obtain ⟨_, h1, h2, h3⟩ := f3.1 hm; exact .path h1 h2 h3 (by simp [flavorOf])
    | cte => obtain ⟨⟨_, h1, h2, h3⟩, -⟩ := f4.1 hm; exact .context h1 h2 h3 (by simp [flavorOf])
    | cif =>
      rcases l5'.1 hm with h | ⟨h1, _, h2, h3, h4⟩
      · obtain ⟨⟨_, h1, h2, h3⟩, -⟩ := f5.1 h; exact .context h1 h2 h3 (by simp [flavorOf])
      · exact .devel h1 h2 h3 h4

section
variable {w : Machine} {args : List Opt} {paths : List Str} {r : MainResult}

/-- **C71 (parse errors).** A run with `-r` that reaches the analysis ends with EX_SOFTWARE (70) iff
one of the files it reads cannot be read or does not follow the grammar. The files it reads are the
policy files below the paths and the te and if files below the context paths, or the development
headers. -/
theorem C71_parse_error (h : selintMain w args paths = .ok r) (hr : Reaches w.config args paths.length)
    (hrec : Opt.recursive ∈ args)
    (hp : ∀ root ∈ paths, PlainDirs (optionsOf args).sourceFlag root (baseName root) (w.fs root)) :
    r.status = 70 ↔ ∃ fl p, ReadsFile w args paths fl p ∧ ¬Parseable (w.sources []) p fl := by
  rcases selintMain_cases h with ⟨h1, -⟩ | ⟨-, st, s, ck, e, rs, A, ps, cs, h1, h2, h3, h4, h5, h6, h7, h8⟩
  · exact absurd hr h1
  have hs : r.status = 70 ↔ e ≠ .success := by
    rw [h6]
    cases e <;> cases st.opts.failOnFinding <;> cases rs.rs.foundIssue <;>
      simp [exitStatus, exOk, exSoftware, exDataErr]
  rw [hs, h5.parse_error]
  constructor
  · rintro ⟨l, p, h9, h10⟩
    exact ⟨_, p, (reads_iff h3 h2 hrec hp _ p).2 ⟨l, rfl, h9⟩, by cases l <;> exact h10⟩
  · rintro ⟨fl, p, h9, h10⟩
    obtain ⟨l, rfl, h11⟩ := (reads_iff h3 h2 hrec hp _ p).1 h9
    exact ⟨l, p, h11, by cases l <;> exact h10⟩

end

/-! ## Defined behaviour -/

/-- Conditions under which a run of the program is free of undefined behaviour. Which of them are
necessary is the subject of the properties named here. -/
structure Spec.Tidy (w : Machine) (args : List Opt) (paths : List Str) (arity : Str → Nat) : Prop where
  /-- No check id is the empty text. -/
  ids : ∀ id, Opt.disable id ∈ args ∨ Opt.enable id ∈ args → id ≠ []
  configIds : ∀ f cfg, w.config.contents f = some cfg → ∀ id ∈ cfg.disable ++ cfg.enableNormal ++ cfg.enableSource, id ≠ []
  /-- The calls and templates of the texts fit together (C70). -/
  texts : ∀ name s f, w.text name = some s → ParsesTo s f → TameFile arity f
  /-- The lines of fc files are such that their parser stays within them (C36). -/
  fcLines : ∀ st, settings w.config (optionsOf args) paths.length = .go st → ∀ name ls, w.fcLines name = some ls →
    ∀ i ∈ ls, IgnoredFcLine st.customFcMacros i.len i.text ∨ Tame i.text
  /-- The te files that are checked have fewer lines than an `unsigned int` can count, and none of
  them defines access vectors. -/
  te : ∀ root ∈ paths, ∀ p ∈ allVisits root (w.fs root), HasSuffix cs!".te" p → ∀ s, w.text p = some s →
    s.count '\n' < 2 ^ 32 - 1 ∧ ∀ d ls, ¬ParsesTo s (.av [] d ls)
  /-- The lines of modules.conf files are entries, comments or blank (C45). -/
  modules : ∀ p lines, w.confLines p = some lines → ∃ said : List (Option (Str × Str)),
    ∃ h : lines.length = said.length, ∀ i (hi : i < lines.length), ModLine (lines[i]).1 (said[i]'(h ▸ hi))
  /-- A support file that could not be parsed leaves no templates behind that do not fit. -/
  broken : ∀ p kind m, TameTables arity m → TameTables arity (w.broken p kind m)
  /-- The permission macros that were loaded with the source of a policy are not circular (C67). -/
  macros : (optionsOf args).sourceFlag = true → ∀ st s, settings w.config (optionsOf args) paths.length = .go st →
    loadSupport w st.opts (collect w st paths) = .ok s → ∀ p, ¬OnCycle s.maps p

theorem invalidIds_defined {ids : List Str} (h : ∀ id ∈ ids, id ≠ []) : ∃ r, invalidIds ids = .ok r := by
  induction ids with
  | nil => exact ⟨[], rfl⟩
  | cons id ids ih =>
    obtain ⟨r, hr⟩ := ih fun i hi => h i (.tail _ hi)
    have h1 : ∃ b, isValidCheck (some id) = .ok b := by
      cases h2 : isValidCheck (some id) with
      | ok b => exact ⟨b, rfl⟩
      | ub =>
        unfold isValidCheck at h2
        have := h id (.head _)
        repeat' split at h2
        all_goals first | cases h2; done | simp_all
    obtain ⟨b, hb⟩ := h1
    exact ⟨_, by rw [invalidIds, hb, Res.bind_ok, hr, Res.bind_ok]⟩

theorem configIds_nonempty {w : ConfigWorld} {o : Options}
    (h : ∀ f cfg, w.contents f = some cfg → ∀ id ∈ cfg.disable ++ cfg.enableNormal ++ cfg.enableSource, id ≠ []) :
    ∀ id ∈ configIds w o, id ≠ [] := by
  intro id hid
  unfold configIds at hid
  split at hid
  · rename_i f hf
    split at hid
    · rename_i p hp
      obtain ⟨cfg, h1, h2⟩ := Option.bind_eq_some_iff.1 hp
      refine h f cfg h1 id ?_
      unfold parseConfig at h2
      simp only at h2
      repeat' split at h2
      all_goals first | cases h2; done | skip
      all_goals
        cases h2
        simp only [List.mem_append] at hid ⊢
        rcases hid with hid | hid
        · exact .inl (.inl hid)
        · first | exact .inr hid | exact .inl (.inr hid)
    · cases hid
  · cases hid

theorem TameTables.empty (arity : Str → Nat) : TameTables arity {} := ⟨nofun, nofun⟩

/-- The tables of templates and of permission macros are the same. -/
def SameTemplates (m m' : Maps) : Prop := m'.permmacros = m.permmacros ∧ m'.template = m.template

theorem SameTemplates.trans {a b c : Maps} (h1 : SameTemplates a b) (h2 : SameTemplates b c) : SameTemplates a c :=
  ⟨h2.1.trans h1.1, h2.2.trans h1.2⟩

theorem insertDecl_keeps (m : Maps) (n mod : Str) (fl : DeclFlavor) : SameTemplates m (m.insertDecl n mod fl) :=
  (Maps.insertDecl_other ..).2.2.2.2.2.2

theorem insertConfigDeclarations_keeps (m : Maps) (l : List Str) (fl : DeclFlavor) :
    SameTemplates m (insertConfigDeclarations m l fl) := by
  unfold insertConfigDeclarations
  induction l generalizing m with
  | nil => exact ⟨rfl, rfl⟩
  | cons x l ih => rw [List.foldl_cons]; exact (insertDecl_keeps ..).trans (ih _)

theorem settings_keeps {w : ConfigWorld} {o : Options} {n : Nat} {st : Settings} (h : settings w o n = .go st) :
    SameTemplates {} st.maps := by
  have base : SameTemplates {} ((({} : Maps).insertDecl cs!"system_u" cs!"__assumed__" .user).insertDecl
      cs!"object_r" cs!"__assumed__" .role) := (insertDecl_keeps ..).trans (insertDecl_keeps ..)
  have conf : ∀ cfg p, parseConfig cfg o.sourceFlag {} = some p → SameTemplates {} p.maps := by
    intro cfg p hp
    unfold parseConfig at hp
    simp only at hp
    repeat' split at hp
    all_goals first | cases hp; done | skip
    all_goals
      cases hp
      exact (insertConfigDeclarations_keeps ..).trans (insertConfigDeclarations_keeps ..)
  unfold settings at h
  split at h
  · cases h
  · rename_i cf hcf
    cases cf with
    | none =>
      simp only at h
      split at h
      · cases h
      · split at h
        · cases h
        · cases h; exact base
    | some f =>
      simp only at h
      cases hf : w.contents f with
      | none => rw [hf] at h; cases h
      | some cfg =>
        rw [hf] at h
        simp only at h
        cases hp : parseConfig cfg o.sourceFlag {} with
        | none => rw [hp] at h; cases h
        | some p =>
          rw [hp] at h
          simp only at h
          split at h
          · cases h
          · split at h
            · cases h
            · cases h; exact conf cfg p hp

theorem settings_opts {w : ConfigWorld} {o : Options} {n : Nat} {st : Settings} (h : settings w o n = .go st) :
    st.opts = o := by
  rcases settings_spec w o n with h4 | h4 | h4 | h4
  · rw [h] at h4; cases h4.2
  · rw [h] at h4; cases h4.2.2
  · rw [h] at h4; cases h4.2.2.2
  · obtain ⟨-, -, -, -, st', h9, h10⟩ := h4
    rw [h] at h10; cases h10; exact h9

theorem collect_keeps (w : Machine) (st : Settings) (paths : List Str) :
    SameTemplates st.maps (collect w st paths).maps := by
  have h1 : ∀ roots s, SameTemplates s.maps (scanMain st.opts roots s).maps := by
    intro roots
    unfold scanMain
    induction roots with
    | nil => intro s; exact ⟨rfl, rfl⟩
    | cons r rs ih =>
      intro s
      rw [List.foldl_cons]
      refine SameTemplates.trans ?_ (ih _)
      exact ftsWalk_inv (P := fun s' : Scan => SameTemplates s.maps s'.maps)
        (fun e s' h => by unfold visitMain; repeat' split <;> try exact h) _ _ _ _ _ ⟨rfl, rfl⟩
  have h2 : ∀ roots s, SameTemplates s.maps (scanContext st.opts roots s).maps := by
    intro roots
    unfold scanContext
    induction roots with
    | nil => intro s; exact ⟨rfl, rfl⟩
    | cons r rs ih =>
      intro s
      rw [List.foldl_cons]
      refine SameTemplates.trans ?_ (ih _)
      exact ftsWalk_inv (P := fun s' : Scan => SameTemplates s.maps s'.maps)
        (fun e s' h => by simp only [visitContext]; repeat' split <;> try exact h) _ _ _ _ _ ⟨rfl, rfl⟩
  exact (h1 _ _).trans (h2 _ _)

theorem loadAccessVectorsKernel_keeps (kernel : Option Fs) (m : Maps) :
    SameTemplates m (loadAccessVectorsKernel kernel m) := by
  have hv : ∀ e (m' : Maps), SameTemplates m m' → SameTemplates m (visitKernel e m').1 := by
    intro e m' h
    unfold visitKernel
    split
    · exact h.trans (insertDecl_keeps ..)
    · split
      · exact h.trans (insertDecl_keeps ..)
      · exact h
  unfold loadAccessVectorsKernel
  split
  · exact ⟨rfl, rfl⟩
  · exact hv _ _ ⟨rfl, rfl⟩
  · exact ftsWalkList_inv (P := fun m' : Maps => SameTemplates m m') hv _ _ _ _ ⟨rfl, rfl⟩

theorem loadDevelHeaders_keeps (devel : Option Fs) (s : Scan) :
    SameTemplates s.maps (loadDevelHeaders devel s).maps := by
  unfold loadDevelHeaders
  split
  · exact ⟨rfl, rfl⟩
  · exact ftsWalk_inv (P := fun s' : Scan => SameTemplates s.maps s'.maps)
      (fun e s' h => by unfold visitDevel; split <;> exact h) _ _ _ _ _ ⟨rfl, rfl⟩

section
variable {w : Machine} {args : List Opt} {paths : List Str} {arity : Str → Nat}

theorem loadSupportFile_defined (ht : Tidy w args paths arity) (kind : PlainFlavor) (p : Str) {m : Maps}
    (hm : TameTables arity m) : ∃ m', loadSupportFile w kind p m = .ok m' ∧ TameTables arity m' := by
  unfold loadSupportFile
  cases h2 : w.text p with
  | none => exact ⟨m, rfl, hm⟩
  | some s =>
    simp only
    cases h3 : (lexFile s).bind pFile with
    | none => exact ⟨_, rfl, ht.broken _ _ _ hm⟩
    | some f =>
      simp only
      obtain ⟨toks, h4, h5⟩ := Option.bind_eq_some_iff.1 h3
      have hp : ParsesTo s f := ⟨toks, h4, C68_sound h5⟩
      obtain ⟨r, h6, h7⟩ := C70_file hp (ht.texts _ _ _ h2 hp) hm kind p
      rw [h6, Res.bind_ok]
      cases r with
      | none => exact ⟨_, rfl, ht.broken _ _ _ hm⟩
      | some st => exact ⟨_, rfl, h7 st rfl⟩

theorem loadModules_defined (ht : Tidy w args paths arity) (p : Str) {m : Maps} (hm : TameTables arity m) :
    ∃ m', loadModules w p m = .ok m' ∧ TameTables arity m' := by
  unfold loadModules
  cases h : w.confLines p with
  | none => exact ⟨m, rfl, hm⟩
  | some lines =>
    obtain ⟨said, h1, h2⟩ := ht.modules p lines h
    simp only
    rw [C45_file_partial m lines said h1 h2, Res.bind_ok]
    refine ⟨_, rfl, ?_⟩
    generalize said.filterMap id = es
    induction es generalizing m with
    | nil => exact hm
    | cons e es ih => exact ih (hm.congr rfl)

theorem ifFound_defined {path : Option Str} {load : Str → Maps → Res Maps}
    (hl : ∀ p m, TameTables arity m → ∃ m', load p m = .ok m' ∧ TameTables arity m') {m : Maps}
    (hm : TameTables arity m) : ∃ m', ifFound path load m = .ok m' ∧ TameTables arity m' := by
  cases path with
  | none => exact ⟨m, rfl, hm⟩
  | some p => exact hl p m hm

theorem loadSupport_defined (ht : Tidy w args paths arity) (o : Options) {s : Scan} (hm : TameTables arity s.maps) :
    ∃ s', loadSupport w o s = .ok s' ∧ TameTables arity s'.maps := by
  unfold loadSupport
  split
  · obtain ⟨m1, e1, t1⟩ := ifFound_defined (path := s.accessVectors)
      (fun p m h => loadSupportFile_defined ht .avFile p h) hm
    obtain ⟨m2, e2, t2⟩ := ifFound_defined (path := s.modulesConf) (fun p m h => loadModules_defined ht p h) t1
    obtain ⟨m3, e3, t3⟩ := ifFound_defined (path := s.objPermSets)
      (fun p m h => loadSupportFile_defined ht .sptFile p h) t2
    exact ⟨_, by rw [e1, Res.bind_ok, e2, Res.bind_ok, e3, Res.bind_ok], t3⟩
  · exact ⟨_, rfl, hm.congr ((loadAccessVectorsKernel_keeps ..).trans (loadDevelHeaders_keeps ..)).2⟩

end

theorem basename_suffix {suf p : Str} (h : HasSuffix suf p) (hs : '/' ∉ suf) : suf.length ≤ (basename p).length := by
  obtain ⟨base, -, rfl⟩ := h
  unfold basename
  rw [List.length_reverse, List.reverse_append, List.takeWhile_append_of_pos]
  · simp
  · intro c hc
    simp only [decide_eq_true_eq]
    rintro rfl
    exact hs (List.mem_reverse.1 hc)

theorem undefinedParse_false {src : Sources} {suppress : Bool} {config : ConfigCheckData} {log : List Event} {m : Maps}
    (h : DefinedParses src (wholeProgram src suppress config) log m) :
    undefinedParse src suppress config log m = false := by
  induction log generalizing m with
  | nil => rfl
  | cons ev log ih =>
    have hnext : ∀ m', (∀ pre, tablesOf (wholeProgram src suppress config) (ev :: pre) m =
        tablesOf (wholeProgram src suppress config) pre m') → undefinedParse src suppress config log m' = false := by
      intro m' hm'
      refine ih fun pre a n fl ast post hl => ?_
      rw [← hm']
      exact h (ev :: pre) a n fl ast post (by rw [hl]; rfl)
    cases ev with
    | parse a n fl ast =>
      have h1 : DefinedParse src n m fl := h [] a n fl ast log rfl
      simp only [undefinedParse, Bool.or_eq_false_iff]
      refine ⟨?_, hnext _ fun pre => rfl⟩
      cases fl <;> first | rfl | skip
      all_goals
        obtain ⟨x, hx⟩ := h1
        simp only [undefinedFile, hx]
    | mark asts => exact hnext _ fun pre => rfl
    | check => exact hnext _ fun pre => rfl
    | cleanup => exact hnext _ fun pre => rfl

theorem pushAll_filename (ops : List (Which × Str)) : ∀ c ∈ (pushAll ops).1, ∃ l, (l, c.filename) ∈ ops := by
  induction ops with
  | nil => nofun
  | cons op ops ih =>
    have key : ∀ c ∈ (pushAll (op :: ops)).1, c.filename = op.2 ∨ ∃ c' ∈ (pushAll ops).1, c'.filename = c.filename := by
      intro c hc
      simp only [pushAll, fileListPushBack] at hc
      split at hc
      · rcases List.mem_append.1 hc with hc | hc
        · unfold FileHeap.setNext at hc
          split at hc
          · exact .inr ⟨c, hc, rfl⟩
          · rename_i c' hc'
            rcases List.mem_or_eq_of_mem_set hc with hc | rfl
            · exact .inr ⟨c, hc, rfl⟩
            · exact .inr ⟨c', List.mem_of_getElem? hc', rfl⟩
        · simp only [List.mem_singleton] at hc; subst hc; exact .inl rfl
      · rcases List.mem_append.1 hc with hc | hc
        · exact .inr ⟨c, hc, rfl⟩
        · simp only [List.mem_singleton] at hc; subst hc; exact .inl rfl
    intro c hc
    rcases key c hc with h | ⟨c', h1, h2⟩
    · exact ⟨op.1, by rw [h]; exact .head _⟩
    · obtain ⟨l, h3⟩ := ih c' h1
      exact ⟨l, by rw [← h2]; exact .tail _ h3⟩

/-- **C71 (defined).** Under the conditions above, the program runs from the command line to its end
without undefined behaviour. -/
theorem C71_defined {w : Machine} {args : List Opt} {paths : List Str} {arity : Str → Nat}
    (ht : Tidy w args paths arity) : ∃ r, selintMain w args paths = .ok r := by
  unfold selintMain
  have hopt := C08_options args
  cases hstop : args.findSome? optStop with
  | some c => rw [hstop] at hopt; simp only at hopt; rw [hopt]; exact ⟨_, rfl⟩
  | none =>
    rw [hstop] at hopt
    simp only at hopt
    rw [hopt]
    simp only
    obtain ⟨w1, h1⟩ := invalidIds_defined (ids := (optionsOf args).clDisabled ++ (optionsOf args).clEnabled) (by
      intro id hid
      refine ht.ids id ?_
      simp only [optionsOf, List.mem_append, List.mem_filterMap] at hid
      rcases hid with ⟨a, ha, he⟩ | ⟨a, ha, he⟩ <;> split at he <;> cases he
      · exact .inl ha
      · exact .inr ha)
    obtain ⟨w2, h2⟩ := invalidIds_defined (configIds_nonempty (o := optionsOf args) ht.configIds)
    rw [h1, Res.bind_ok, h2, Res.bind_ok]
    cases h3 : settings w.config (optionsOf args) paths.length with
    | exit c => exact ⟨_, rfl⟩
    | go st =>
      simp only [mainWith]
      obtain ⟨s, h4, h5⟩ := loadSupport_defined ht st.opts (s := collect w st paths)
        ((TameTables.empty arity).congr ((settings_keeps h3).trans (collect_keeps ..)).2)
      rw [h4, Res.bind_ok]
      cases h6 : registerChecks st.severity st.enableConf s.maps with
      | none => exact ⟨_, rfl⟩
      | some ck =>
        simp only
        obtain ⟨A, hw, hn⟩ := pushes_world s
        obtain ⟨f1, -, -, -, f2⟩ := files_suffix h4
        have hname : ∀ l a c, a ∈ A l → (pushAll (pushes s)).1[a]? = some c → c.filename ∈ s.filesOf l := by
          intro l a c ha hc
          have : some c.filename ∈ (s.filesOf l).map some := by
            rw [← hn l]
            exact List.mem_map.2 ⟨a, ha, by rw [hc]; rfl⟩
          simpa using this
        have hcyc : ∀ p, ¬OnCycle s.maps p := by
          by_cases hsrc : (optionsOf args).sourceFlag = true
          · exact ht.macros hsrc st s h3 h4
          · intro p hp
            have hk : SameTemplates {} s.maps := by
              rw [loadSupport, settings_opts h3, if_neg hsrc] at h4
              cases h4
              exact (settings_keeps h3).trans ((collect_keeps ..).trans
                ((loadAccessVectorsKernel_keeps ..).trans (loadDevelHeaders_keeps ..)))
            obtain ⟨d, ⟨-, ps, h7, -⟩, -⟩ := onCycle_congr (m' := {}) hk.1 hp
            cases h7
        obtain ⟨e, rs, h7, ⟨x, h8⟩, -⟩ := C67_run (src := w.sources st.customFcMacros) st.opts.suppressOutput st.checkData
          (files := s.te) (level := st.severity) (c := st.enableConf)
          (s := ⟨(pushAll (pushes s)).1, s.maps, ck, ⟨false, .ok .init, []⟩, []⟩)
          ⟨fun n hn t h => by
              obtain ⟨root, h9, h10⟩ := f2 .te (.inl rfl) n hn
              exact (ht.te root h9 n h10 (f1 .te n hn) t h).1,
            fun n hn t h => by
              obtain ⟨root, h9, h10⟩ := f2 .te (.inl rfl) n hn
              exact (ht.te root h9 n h10 (f1 .te n hn) t h).2⟩
          hw (fun a ha c hc => hname .te a c ha hc) hcyc h6 rfl rfl
        obtain ⟨e', rs', h9, h10⟩ := C70_run (arity := arity) (src := w.sources st.customFcMacros)
          ⟨ht.texts, ht.fcLines st h3⟩ st.opts.suppressOutput st.checkData
          (s := ⟨(pushAll (pushes s)).1, s.maps, ck, ⟨false, .ok .init, []⟩, []⟩) hw rfl
          (by
            intro c hc
            obtain ⟨l, hl⟩ := pushAll_filename _ c hc
            have hmem : c.filename ∈ s.filesOf l := by
              simp only [pushes, List.mem_reverse, List.mem_append, List.mem_map, Prod.mk.injEq] at hl
              rcases hl with (((⟨_, h, rfl, rfl⟩ | ⟨_, h, rfl, rfl⟩) | ⟨_, h, rfl, rfl⟩) | ⟨_, h, rfl, rfl⟩) |
                ⟨_, h, rfl, rfl⟩ <;> exact h
            have := basename_suffix (f1 l _ hmem) (by cases l <;> decide)
            cases l <;> exact this) h5
        rw [h7] at h9
        cases h9
        have : analyse w st s ck = .ok (e, rs) := by
          unfold analyse
          simp only [h7, undefinedParse_false h10, Bool.false_eq_true, if_false, h8]
        rw [this, Res.bind_ok]
        exact ⟨_, rfl⟩

/-! ## C71 is about something -/

/-- A machine with a directory `mod` of three files, one of them hidden away, and nothing else. -/
def exMachine : Machine where
  config := ⟨fun _ => false, fun _ => none, cs!"/etc/selint.conf"⟩
  fs := fun p => if p = cs!"mod" then .dir (.cons cs!"foo.fc" .file (.cons cs!"foo.if" .file (.cons cs!"foo.te" .file
    (.cons cs!".git" (.dir (.cons cs!"bad.te" .file .nil)) .nil)))) else .file
  text := fun name => if name = cs!"mod/foo.if" then some templateText
    else if name = cs!"mod/foo.te" then some callerText else none
  fcLines := fun name => if name = cs!"mod/foo.fc" then
    some [⟨cs!"/x(/.*)?\t--\tgen_context(system_u:object_r:x_t,s0)\n", 51, []⟩] else none
  confLines := fun _ => none
  kernel := none
  devel := none
  broken := fun _ _ m => m

theorem exMachine_tidy (args : List Opt) (h : ∀ id, Opt.disable id ∈ args ∨ Opt.enable id ∈ args → id ≠ [])
    (hsrc : ¬(optionsOf args).sourceFlag = true) : Tidy exMachine args [cs!"mod"] exampleArity where
  ids := h
  configIds := nofun
  texts := by
    intro name s f h hp
    simp only [exMachine] at h
    split at h
    · cases h; exact C70_text template_parses hp template_tame
    · split at h
      · cases h; exact C70_text caller_parses hp caller_tame
      · cases h
  fcLines := by
    intro st _ name ls h i hi
    simp only [exMachine] at h
    split at h
    · cases h
      simp only [List.mem_singleton] at hi
      subst hi
      exact .inr (tame_of_one_comma (by decide) (by decide) (by decide))
    · cases h
  te := by
    intro root _ p _ _ s h
    simp only [exMachine] at h
    split at h
    · cases h
      refine ⟨by decide +kernel, fun d ls hp => ?_⟩
      have := C68_unambiguous_text template_parses hp
      cases this
    · split at h
      · cases h
        refine ⟨by decide +kernel, fun d ls hp => ?_⟩
        have := C68_unambiguous_text caller_parses hp
        cases this
      · cases h
  modules := nofun
  broken := fun _ _ _ h => h
  macros := fun h => absurd h hsrc

theorem exMachine_reaches {args : List Opt} (h1 : ∀ x ∈ args, optStop x = none) (h2 : ∀ f, Opt.config f ∉ args)
    (h3 : Opt.onlyEnabled ∉ args) : Reaches exMachine.config args 1 where
  noStop := h1
  readable := by
    rintro ⟨f, h, -⟩
    have : (optionsOf args).configFile = none := by
      simp only [optionsOf, lastArg]
      rw [List.getLast?_eq_none_iff, List.filterMap_eq_nil_iff]
      intro a ha
      split
      · exact absurd ha (h2 _)
      · rfl
    rw [this] at h; cases h
  accepted := by
    rintro ⟨f, h, -⟩
    have : (optionsOf args).configFile = none := by
      simp only [optionsOf, lastArg]
      rw [List.getLast?_eq_none_iff, List.filterMap_eq_nil_iff]
      intro a ha
      split
      · exact absurd ha (h2 _)
      · rfl
    simp only [effectiveConfig, this] at h
    cases h
  enabled := fun h => absurd h h3
  paths := by decide

/-- What `selint -r -F -s mod` does on this machine: it meets the conditions of all parts of C71,
reports two findings, prints the summary and exits with 65. With `--scan-hidden-dirs` it stumbles
over a file that cannot be read. -/
example :
    Tidy exMachine [.recursive, .fail, .summary] [cs!"mod"] exampleArity ∧
    Reaches exMachine.config [.recursive, .fail, .summary] 1 ∧
    (∀ root ∈ [cs!"mod"], PlainDirs false root (baseName root) (exMachine.fs root)) ∧
    (match selintMain exMachine [.recursive, .fail, .summary] [cs!"mod"] with
      | .ok r => (r.status, r.findings.map fun f => (f.filename, f.lineno, f.result.severity, f.result.checkId),
          r.summary.isSome)
      | .ub => (0, [], false)) =
      (65, [(cs!"foo.if", 1, 'C', 4), (cs!"foo.fc", 1, 'E', 5)], true) ∧
    (match selintMain exMachine [.recursive, .fail, .summary, .scanHiddenDirs] [cs!"mod"] with
      | .ok r => r.status
      | .ub => 0) = 70 := by
  refine ⟨exMachine_tidy _ (by simp) (by decide), exMachine_reaches (by decide) (by simp) (by decide), ?_,
    by decide +kernel, by decide +kernel⟩
  intro root h
  simp only [List.mem_singleton] at h
  subst h
  simp only [exMachine, if_true, PlainDirs, PlainDirsIn, PlainDir]
  decide +kernel

/-- An option list that does not reach the analysis. -/
example : ¬Reaches exMachine.config [.recursive, .onlyEnabled] 1 :=
  fun h => by obtain ⟨id, h⟩ := h.enabled (by simp); simp at h

end Selint
