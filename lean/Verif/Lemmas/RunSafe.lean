import Verif.Lemmas.CheckSafe
import Verif.Props.OrderingReport
import Verif.Props.PermMacro
import Verif.Props.Selection
import Verif.Props.Run
/-! # Running the checks over a file has defined behaviour -/

namespace Selint
open Spec

/-! ## The lines C-001 looks for -/

theorem orderingNext_mem (l x : Loc) (hx : x ∈ l.walk) (hne : x ≠ l) (he : c001Exempt x = false) :
    ∃ n, orderingNext l = some n ∧ x ∈ n.walk := by
  fun_induction orderingNext l with
  | case1 l h =>
    rw [C09_walk_is_dfs_next, h] at hx
    simp at hx; exact absurd hx hne
  | case2 l n h hn ih =>
    rw [C09_walk_is_dfs_next, h] at hx
    rcases List.mem_cons.1 hx with rfl | hx
    · exact absurd rfl hne
    · refine ih hx ?_
      rintro rfl; rw [hn] at he; cases he
  | case3 l n h hn =>
    rw [C09_walk_is_dfs_next, h] at hx
    rcases List.mem_cons.1 hx with rfl | hx
    · exact absurd rfl hne
    · exact ⟨n, rfl, hx⟩

theorem mem_orderingWalk (l x : Loc) (hx : x ∈ l.walk) (he : x = l ∨ c001Exempt x = false) :
    x ∈ orderingWalk l := by
  fun_induction orderingWalk l with
  | case1 l h =>
    rcases he with rfl | he
    · exact .head _
    · by_cases hne : x = l
      · exact hne ▸ .head _
      · obtain ⟨n, hn, _⟩ := orderingNext_mem l x hx hne he
        rw [h] at hn; cases hn
  | case2 l n h ih =>
    by_cases hne : x = l
    · exact hne ▸ .head _
    · have he := he.resolve_left hne
      obtain ⟨n', hn, hm⟩ := orderingNext_mem l x hx hne he
      rw [h] at hn; cases hn
      exact .tail _ (ih hm (.inr he))

theorem orderingNext_walk {l n : Loc} (h : orderingNext l = some n) : ∀ x ∈ n.walk, x ∈ l.walk := by
  fun_induction orderingNext l with
  | case1 => cases h
  | case2 l n' hd _ ih =>
    intro x hx
    rw [C09_walk_is_dfs_next, hd]
    exact .tail _ (ih h x hx)
  | case3 l n' hd =>
    cases h
    intro x hx
    rw [C09_walk_is_dfs_next, hd]
    exact .tail _ hx

theorem orderingWalk_walk (l : Loc) : ∀ x ∈ orderingWalk l, x ∈ l.walk := by
  fun_induction orderingWalk l with
  | case1 l h =>
    intro x hx
    rw [List.mem_singleton] at hx
    rw [hx, C09_walk_is_dfs_next]
    exact .head _
  | case2 l n h ih =>
    intro x hx
    rcases List.mem_cons.1 hx with rfl | hx
    · rw [C09_walk_is_dfs_next]; exact .head _
    · exact orderingNext_walk h x (ih x hx)

theorem c001Exempt_of_not_excepted {l : Loc} (h : ¬ Excepted cs!"C-001" l) : c001Exempt l = false := by
  unfold c001Exempt
  cases he : l.info.exceptions with
  | none => rfl
  | some e =>
    simp only
    cases hs : strstr cs!"C-001" e with
    | false => rfl
    | true => exact absurd ⟨e, he, strstr_iff.1 hs⟩ h

/-! ## The hooks -/

/-- The hooks come from the table, with their ids, on their flavors; if C-001 has any hook it
has one for the file node. -/
def HooksWell (ck : Checks CheckFn) : Prop :=
  (∀ fl, ∀ h ∈ ck fl, fl ∈ fnOn h.fn ∧ (h.fn = .teOrder → h.id = cs!"C-001")) ∧
  (∀ fl, ∀ h ∈ ck fl, h.fn = .teOrder → ∃ h' ∈ ck .teFile, h'.fn = .teOrder)

theorem hooksWell_registered {level : Char} {c : EnableConf} {m : Maps} {ck : Checks CheckFn}
    (h : registerChecks level c m = some ck) : HooksWell ck := by
  have hck := C03_registered level c m ck h
  have hrow : ∀ row ∈ checkTable, row.fn = .teOrder → row.id = cs!"C-001" ∧ NodeFlavor.teFile ∈ row.on := by
    simp only [checkTable, List.forall_mem_cons, List.not_mem_nil, false_imp_iff, implies_true,
      reduceCtorEq, and_true, forall_const]
    exact ⟨by decide, by decide⟩
  refine ⟨?_, ?_⟩
  · intro fl hk hm
    rw [hck fl] at hm
    simp only [hooksOn, List.mem_map, List.mem_filter, Bool.and_eq_true, decide_eq_true_eq] at hm
    obtain ⟨row, ⟨h1, _, h2⟩, rfl⟩ := hm
    exact ⟨fnOn_row row h1 ▸ h2, fun e => (hrow row h1 e).1⟩
  · intro fl hk hm e
    rw [hck fl] at hm
    simp only [hooksOn, List.mem_map, List.mem_filter, Bool.and_eq_true, decide_eq_true_eq] at hm
    obtain ⟨row, ⟨h1, h2, _⟩, rfl⟩ := hm
    refine ⟨⟨row.fn, row.id, 0⟩, ?_, e⟩
    rw [hck .teFile]
    simp only [hooksOn, List.mem_map, List.mem_filter, Bool.and_eq_true, decide_eq_true_eq]
    exact ⟨row, ⟨h1, h2, (hrow row h1 e).2⟩, rfl⟩

/-! ## One invocation -/

/-- An internal error of this invocation is a known one. -/
def ResultOk (v : Invocation CheckFn) (r : Option CheckResult) : Prop :=
  ∀ res, r = some res → res.severity = 'F' → KnownInternal v.node.info v.node.focus.children res

/-- The invocation is of a check on a node it is registered for. -/
structure InvOk (v : Invocation CheckFn) : Prop where
  loc : LocOk v.node
  on : v.node.flavor ∈ fnOn v.fn

theorem step_plain {m : Maps} {data : CheckData} {v : Invocation CheckFn} {s : Statics} (hv : InvOk v)
    (hpm : PmStateOk m s.pm) (hc : ∀ c, ¬OnCycle m c) (hn : v.fn ≠ .teOrder) :
    ∃ s' r, v.fn.run m data v.node s = .ok (s', r) ∧ s'.order = s.order ∧ PmStateOk m s'.pm ∧
      ResultOk v r := by
  by_cases hp : v.fn = .permMacroAvailable
  · have hon := hv.on
    rw [hp] at hon ⊢
    simp only [fnOn, List.mem_singleton] at hon
    obtain ⟨d, hd⟩ := data_av hon
    have hok := hv.loc.node
    unfold NodeOk at hok
    rw [show v.node.info.data = .av d from hd] at hok
    simp only [CheckFn.run, checkPermMacroAvailable, hd]
    split
    · exact ⟨s, none, rfl, rfl, hpm, by simp [ResultOk]⟩
    · cases hcl : d.objectClasses with
      | nil => exact absurd hcl hok.2.2
      | cons c cs =>
        simp only
        split
        · exact ⟨s, none, rfl, rfl, hpm, by simp [ResultOk]⟩
        · obtain ⟨st', res, he⟩ := C24_no_crash hpm c d.perms hc
          have hst := C24_state_ok hpm he
          simp only [he, Res.bind_ok]
          cases res with
          | none => exact ⟨_, none, rfl, rfl, .inr hst, by simp [ResultOk]⟩
          | some r =>
            refine ⟨_, some _, rfl, rfl, .inr hst, ?_⟩
            rintro _ ⟨⟩ h
            simp at h
  · obtain ⟨s', x, h1, h2, h3, h4⟩ := CheckFn.run_safe (m := m) (data := data) hv.loc s v.fn hn hp hv.on
    refine ⟨s', x, h1, h2, h3 ▸ hpm, ?_⟩
    intro res e hs
    obtain ⟨hfn, he, ht⟩ := h4 res e hs
    refine .inr ⟨?_, he, ht⟩
    have := hv.on
    rw [hfn] at this
    simp only [fnOn, List.mem_cons, List.not_mem_nil, or_false] at this
    simp only [isRequireBlock, Bool.or_eq_true, beq_iff_eq]
    exact this

/-- The check's state is defined, the permission macros are loaded or not at all. -/
def StOk (m : Maps) (st : Res Statics) : Prop := ∃ s, st = .ok s ∧ PmStateOk m s.pm

theorem execute_plain {m : Maps} {data : CheckData} (hc : ∀ c, ¬OnCycle m c)
    (vs : List (Invocation CheckFn)) (hvs : ∀ v ∈ vs, InvOk v)
    (hn : data.flavor ≠ .teFile ∨ ∀ v ∈ vs, v.fn ≠ .teOrder) {st : Res Statics} (hst : StOk m st) :
    StOk m (execute (selintExec m) data vs st).1 ∧
    ∀ vr ∈ (execute (selintExec m) data vs st).2, ResultOk vr.1 vr.2 := by
  induction vs generalizing st with
  | nil => exact ⟨hst, by simp [execute]⟩
  | cons v vs ih =>
    obtain ⟨s, rfl, hpm⟩ := hst
    have key : ∃ s' r, v.fn.run m data v.node s = .ok (s', r) ∧ PmStateOk m s'.pm ∧ ResultOk v r := by
      by_cases ho : v.fn = .teOrder
      · have hd : data.flavor ≠ .teFile := by
          rcases hn with h | h
          · exact h
          · exact absurd ho (h v (.head _))
        refine ⟨s, none, ?_, hpm, by simp [ResultOk]⟩
        simp only [ho, CheckFn.run, checkTeOrder, if_pos hd, Res.pure_eq, Res.bind_ok]
      · obtain ⟨s', r, h1, _, h2, h3⟩ := step_plain (data := data) (hvs v (.head _)) hpm hc ho
        exact ⟨s', r, h1, h2, h3⟩
    obtain ⟨s', r, h1, h2, h3⟩ := key
    have := ih (fun v hv => hvs v (.tail _ hv)) (hn.imp_right fun h v hv => h v (.tail _ hv)) ⟨s', rfl, h2⟩
    simp only [execute, selintExec, h1]
    refine ⟨this.1, ?_⟩
    intro vr hvr
    rcases List.mem_cons.1 hvr with rfl | hvr
    · exact h3
    · exact this.2 vr hvr

/-! ## C-001 over a te file -/

/-- The remembered index is not behind the nodes to come. -/
def IndexOk (head : Loc) (i : Nat) (vs : List (Invocation CheckFn)) : Prop :=
  i = 0 ∨ ∃ hi : i < (orderedNodes head).length, ∀ v ∈ vs, (orderedNodes head)[i].addr ≤ v.node.addr

theorem index_le {head : Loc} {i j : Nat} (hi : i < (orderedNodes head).length)
    (hj : j < (orderedNodes head).length)
    (h : (orderedNodes head)[i].addr ≤ (orderedNodes head)[j].addr) : i ≤ j := by
  rcases Nat.lt_or_ge j i with hlt | h'
  · have : (orderedNodes head)[j].addr < (orderedNodes head)[i].addr :=
      List.pairwise_iff_getElem.1 (pos_orderedNodes head) j i hj hi hlt
    exact absurd this h
  · exact h'

/-- What C-001 has computed for the file node serves for all lines of the file. -/
def Serves (m : Maps) (data : CheckData) (head : Loc) (o : OrderingMetadata) : Prop :=
  ∀ j (hj : j < (orderedNodes head).length) (i : Nat), i ≤ j →
    ∃ r, checkTeOrder m data (orderedNodes head)[j] ⟨some o, i⟩ = .ok (⟨some o, j⟩, r) ∧
      ∀ res, r = some res → res.severity = 'F' → res = internalError cs!"Failed to compute reason C-001"

theorem serves {m : Maps} {data : CheckData} (hfl : data.flavor = .teFile) {head : Loc} (h : TeFile head)
    (st : OrderState) (hline : ∀ l ∈ orderedNodes head, l.info.lineno < 2 ^ 32) :
    ∃ o, checkTeOrder m data head st = .ok (⟨some o, 0⟩, none) ∧ Serves m data head o := by
  obtain ⟨o, h1, h2⟩ := C29_reports m data hfl head h st hline
  refine ⟨o, h1, ?_⟩
  intro j hj i hij
  obtain ⟨n, -, r, hr, ha, hb⟩ := h2 j hj i hij
  refine ⟨r, hr, ?_⟩
  intro res e hs
  cases hio : n.inOrder with
  | true => rw [ha hio] at e; cases e
  | false =>
    rcases hb hio with ⟨_, _, _, _, _, _, _, _, e'⟩ | ⟨_, e'⟩
    · rw [e] at e'; cases e'; simp at hs
    · rw [e] at e'; cases e'; rfl

theorem execute_te {m : Maps} {data : CheckData} (hc : ∀ c, ¬OnCycle m c) {head : Loc} {o : OrderingMetadata}
    (hs : Serves m data head o) (vs : List (Invocation CheckFn)) (hvs : ∀ v ∈ vs, InvOk v)
    (hn : ∀ v ∈ vs, v.fn = .teOrder → v.node ∈ orderedNodes head)
    (hp : vs.Pairwise fun a b => a.node.addr ≤ b.node.addr) {s : Statics} (hpm : PmStateOk m s.pm)
    {i : Nat} (ho : s.order = ⟨some o, i⟩) (hi : IndexOk head i vs) :
    ∃ s' i', (execute (selintExec m) data vs (.ok s)).1 = .ok s' ∧ PmStateOk m s'.pm ∧
      s'.order = ⟨some o, i'⟩ ∧
    ∀ vr ∈ (execute (selintExec m) data vs (.ok s)).2, ResultOk vr.1 vr.2 := by
  induction vs generalizing s i with
  | nil => exact ⟨s, i, rfl, hpm, ho, by simp [execute]⟩
  | cons v vs ih =>
    have hp' := List.pairwise_cons.1 hp
    have key : ∃ s' r i', v.fn.run m data v.node s = .ok (s', r) ∧ PmStateOk m s'.pm ∧ ResultOk v r ∧
        s'.order = ⟨some o, i'⟩ ∧ IndexOk head i' vs := by
      by_cases hf : v.fn = .teOrder
      · obtain ⟨j, hj, e⟩ := List.mem_iff_getElem.1 (hn v (.head _) hf)
        have hij : i ≤ j := by
          rcases hi with rfl | ⟨hi, h⟩
          · exact Nat.zero_le _
          · exact index_le hi hj (e ▸ h v (.head _))
        obtain ⟨r, hr, hres⟩ := hs j hj i hij
        refine ⟨{ s with order := ⟨some o, j⟩ }, r, j, ?_, hpm, ?_, rfl, ?_⟩
        · simp only [hf, CheckFn.run, ho, ← e, hr, Res.bind_ok, Res.pure_eq]
        · exact fun res h h' => .inl (hres res h h')
        · exact .inr ⟨hj, fun w hw => e ▸ hp'.1 w hw⟩
      · obtain ⟨s', r, h1, h2, h3, h4⟩ := step_plain (data := data) (hvs v (.head _)) hpm hc hf
        refine ⟨s', r, i, h1, h3, h4, h2 ▸ ho, hi.imp_right ?_⟩
        exact fun ⟨h, h'⟩ => ⟨h, fun w hw => h' w (.tail _ hw)⟩
    obtain ⟨s', r, i', h1, h2, h3, h4, h5⟩ := key
    obtain ⟨s'', i'', e1, e2, e3, e4⟩ := ih (fun v hv => hvs v (.tail _ hv)) (fun v hv => hn v (.tail _ hv))
      hp'.2 h2 h4 h5
    simp only [execute, selintExec, h1]
    refine ⟨s'', i'', e1, e2, e3, ?_⟩
    intro vr hvr
    rcases List.mem_cons.1 hvr with rfl | hvr
    · exact h3
    · exact e4 vr hvr

/-- The calls on the file node. -/
theorem execute_head {m : Maps} {data : CheckData} (hfl : data.flavor = .teFile) {head : Loc} (h : TeFile head)
    (hline : ∀ l ∈ orderedNodes head, l.info.lineno < 2 ^ 32) (vs : List (Invocation CheckFn))
    (hne : vs ≠ []) (hvs : ∀ v ∈ vs, v.node = head ∧ v.fn = .teOrder) {s : Statics} (hpm : PmStateOk m s.pm) :
    ∃ s' o, (execute (selintExec m) data vs (.ok s)).1 = .ok s' ∧ PmStateOk m s'.pm ∧
      s'.order = ⟨some o, 0⟩ ∧ Serves m data head o ∧
    ∀ vr ∈ (execute (selintExec m) data vs (.ok s)).2, ResultOk vr.1 vr.2 := by
  induction vs generalizing s with
  | nil => exact absurd rfl hne
  | cons v vs ih =>
    obtain ⟨o, h1, h2⟩ := serves (m := m) hfl h s.order hline
    obtain ⟨e1, e2⟩ := hvs v (.head _)
    have hrun : v.fn.run m data v.node s = .ok ({ s with order := ⟨some o, 0⟩ }, none) := by
      simp only [e1, e2, CheckFn.run, h1, Res.bind_ok, Res.pure_eq]
    by_cases hv : vs = []
    · subst hv
      simp only [execute, selintExec, hrun]
      exact ⟨_, o, rfl, hpm, rfl, h2, by simp [ResultOk]⟩
    · obtain ⟨s', o', i1, i2, i3, i4, i5⟩ := ih hv (fun v hv => hvs v (.tail _ hv))
        (s := { s with order := ⟨some o, 0⟩ }) hpm
      simp only [execute, selintExec, hrun]
      refine ⟨s', o', i1, i2, i3, i4, ?_⟩
      intro vr hvr
      rcases List.mem_cons.1 hvr with rfl | hvr
      · simp [ResultOk]
      · exact i5 vr hvr

/-- The calls at the end of the file. -/
theorem execute_cleanup {m : Maps} {data : CheckData} (vs : List (Invocation CheckFn))
    (hvs : ∀ v ∈ vs, v.node = cleanupLoc ∧ v.fn = .teOrder) {s : Statics} (hpm : PmStateOk m s.pm) :
    StOk m (execute (selintExec m) data vs (.ok s)).1 ∧
    ∀ vr ∈ (execute (selintExec m) data vs (.ok s)).2, vr.2 = none := by
  induction vs generalizing s with
  | nil => exact ⟨⟨s, rfl, hpm⟩, by simp [execute]⟩
  | cons v vs ih =>
    obtain ⟨e1, e2⟩ := hvs v (.head _)
    have hrun : ∃ o, v.fn.run m data v.node s = .ok ({ s with order := o }, none) := by
      simp only [e1, e2, CheckFn.run, checkTeOrder]
      split
      · exact ⟨s.order, rfl⟩
      · exact ⟨_, rfl⟩
    obtain ⟨o, hrun⟩ := hrun
    obtain ⟨i1, i2⟩ := ih (fun v hv => hvs v (.tail _ hv)) (s := { s with order := o }) hpm
    simp only [execute, selintExec, hrun]
    refine ⟨i1, ?_⟩
    intro vr hvr
    rcases List.mem_cons.1 hvr with rfl | hvr
    · rfl
    · exact i2 vr hvr

/-! ## A file -/

theorem run_spec {F σ : Type} (exec : Exec F σ) (suppress : Bool) (ck : Checks F) (data : CheckData)
    (ts : List Tree) (s : RunState σ) :
    (runChecksOnOneFile exec suppress ck data (Loc.ofForest ts) s).2 =
      specState exec suppress data
        ((Tree.locsList [] ts []).flatMap (invocationsAt ck) ++ invocationsAt ck cleanupLoc) s := by
  unfold runChecksOnOneFile
  cases hh : Loc.ofForest ts with
  | none =>
    cases ts with
    | cons t ts => simp [Loc.ofForest] at hh
    | nil => simp only [callChecks_spec]; simp [Tree.locsList]
  | some l =>
    simp only [callChecks_spec, runLoop_spec, invocationsAt_bumpAll, ← specState_append]
    rw [Loc.walk_eq_seq, Loc.seq_ofForest hh]

theorem mem_invocationsAt {F : Type} {ck : Checks F} {l : Loc} {v : Invocation F}
    (h : v ∈ invocationsAt ck l) :
    v.node = l ∧ ∃ hk ∈ ck l.flavor, hk.fn = v.fn ∧ ¬ Excepted hk.id l := by
  simp only [invocationsAt, List.mem_map, List.mem_filter, decide_eq_true_eq] at h
  obtain ⟨⟨hk, i⟩, ⟨hm, hx⟩, rfl⟩ := h
  rw [List.mem_zipIdx_iff_getElem?] at hm
  exact ⟨rfl, hk, List.mem_iff_getElem?.2 ⟨i, hm⟩, rfl, hx⟩

theorem invocationsAt_ok {ck : Checks CheckFn} (hck : HooksWell ck) {l : Loc} (hl : LocOk l) :
    ∀ v ∈ invocationsAt ck l, InvOk v := by
  intro v hv
  obtain ⟨rfl, hk, hm, hf, _⟩ := mem_invocationsAt hv
  exact ⟨hl, hf ▸ (hck.1 _ hk hm).1⟩

theorem only_teOrder {fl : NodeFlavor} {fn : CheckFn} (h : fl ∈ fnOn fn) (hf : fl = .teFile ∨ fl = .cleanup) :
    fn = .teOrder := by
  rcases hf with rfl | rfl <;> cases fn <;> first | rfl | (exfalso; revert h; decide)

theorem visits_ok {m : Maps} {data : CheckData} (hc : ∀ c, ¬OnCycle m c) {ck : Checks CheckFn}
    (hck : HooksWell ck) {ts : List Tree} (hts : Checkable data.flavor ts) {st : Res Statics} (hst : StOk m st) :
    let vs := (Tree.locsList [] ts []).flatMap (invocationsAt ck)
    StOk m (execute (selintExec m) data vs st).1 ∧
    ∀ vr ∈ (execute (selintExec m) data vs st).2, ResultOk vr.1 vr.2 := by
  intro vs
  obtain ⟨hok, hte⟩ := hts
  have hloc : ∀ l ∈ Tree.locsList [] ts [], LocOk l := by
    intro l hl
    have := Tree.unzip_of_mem_locsList [] ts [] l hl
    simp only [Loc.plug, List.reverse_nil, List.nil_append] at this
    unfold LocOk; rw [this]; exact hok
  have hinv : ∀ v ∈ vs, InvOk v := by
    intro v hv
    obtain ⟨l, hl, hv⟩ := List.mem_flatMap.1 hv
    exact invocationsAt_ok hck (hloc l hl) v hv
  by_cases hfl : data.flavor = .teFile
  · rcases hte hfl with ⟨line, rfl⟩ | ⟨root, rest, rfl, htf, hex, hline⟩
    · -- an empty file
      refine execute_plain hc vs hinv (.inr ?_) hst
      intro v hv hf
      obtain ⟨l, hl, hv⟩ := List.mem_flatMap.1 hv
      have := (invocationsAt_ok hck (hloc l hl) v hv).on
      obtain ⟨rfl, -⟩ := mem_invocationsAt hv
      simp only [Tree.locsList, Tree.locs, List.append_nil, List.mem_singleton] at hl
      rw [hf, hl] at this
      simp [fnOn, Loc.flavor, Tree.info, NodeInfo.flavor, NodeData.flavor, PlainFlavor.toFlavor] at this
    · by_cases hhook : ∃ h' ∈ ck .teFile, h'.fn = .teOrder
      · obtain ⟨s, rfl, hpm⟩ := hst
        have hw : Tree.locsList [] (root :: rest) [] =
            ⟨root, [], rest, []⟩ :: Tree.locsList [root] rest [] := by
          have hch := htf.childless
          obtain ⟨i, cs⟩ := root
          simp only [Tree.children] at hch
          subst hch
          simp [Tree.locsList, Tree.locs]
        have hhead : Loc.ofForest (root :: rest) = some ⟨root, [], rest, []⟩ := rfl
        have htrav := C09_traversal hhead
        have hwalk : Loc.walk ⟨root, [], rest, []⟩ = Tree.locsList [] (root :: rest) [] := by
          rw [Loc.walk_eq_seq, Loc.seq_ofForest hhead]
        have hpair : (Tree.locsList [] (root :: rest) []).Pairwise fun a b => a.addr < b.addr :=
          Tree.locsList_pairwise _ _ _
        obtain ⟨c, rest', hrest⟩ := List.exists_cons_of_ne_nil htf.nonempty
        simp only at hrest
        have hrw : Tree.locsList [root] rest [] = Loc.walk ⟨c, [root], rest', []⟩ := by
          rw [Loc.walk_eq_seq, hrest]
          simp [Loc.seq, Loc.after, Tree.locsList]
        have hon : orderingNodes ⟨root, [], rest, []⟩ = orderingWalk ⟨c, [root], rest', []⟩ := by
          simp only [orderingNodes, Loc.next?, hrest]
        have hlines : ∀ l ∈ orderedNodes ⟨root, [], rest, []⟩, l.info.lineno < 2 ^ 32 := by
          intro l hl
          unfold orderedNodes at hl
          rw [hon] at hl
          have hl := orderingWalk_walk _ l (List.mem_filter.1 hl).1
          rw [← hrw] at hl
          refine hline _ ?_
          rw [← htrav.2.2, hwalk, hw]
          exact List.mem_map_of_mem (.tail _ hl)
        have hflav : (⟨root, [], rest, []⟩ : Loc).flavor = .teFile := htf.flavor
        have hvs : vs = invocationsAt ck ⟨root, [], rest, []⟩ ++
            (Tree.locsList [root] rest []).flatMap (invocationsAt ck) := by
          show (Tree.locsList [] (root :: rest) []).flatMap _ = _
          rw [hw]; rfl
        obtain ⟨s₁, o, a1, a2, a3, a4, a5⟩ := execute_head hfl htf hlines
          (invocationsAt ck ⟨root, [], rest, []⟩) (m := m) (s := s)
          (by
            obtain ⟨h', hm, -⟩ := hhook
            obtain ⟨k, hk⟩ := List.mem_iff_getElem?.1 hm
            intro e
            have : (⟨⟨root, [], rest, []⟩, k, h'.fn⟩ : Invocation CheckFn) ∈ invocationsAt ck ⟨root, [], rest, []⟩ := by
              simp only [invocationsAt, List.mem_map, List.mem_filter, decide_eq_true_eq, hflav]
              refine ⟨(h', k), ⟨List.mem_zipIdx_iff_getElem?.2 hk, ?_⟩, rfl⟩
              rintro ⟨e, he, -⟩
              rw [show (⟨root, [], rest, []⟩ : Loc).info = root.info from rfl, hex] at he
              cases he
            rw [e] at this; cases this)
          (by
            intro v hv
            have := (invocationsAt_ok hck (hloc _ (by rw [hw]; exact .head _)) v hv).on
            obtain ⟨e, -⟩ := mem_invocationsAt hv
            exact ⟨e, only_teOrder this (.inl (e ▸ hflav))⟩) hpm
        obtain ⟨s₂, i, b1, b2, b3, b4⟩ := execute_te hc a4
          ((Tree.locsList [root] rest []).flatMap (invocationsAt ck))
          (fun v hv => hinv v (hvs ▸ List.mem_append_right _ hv))
          (by
            intro v hv hf
            have hon' := (hinv v (hvs ▸ List.mem_append_right _ hv)).on
            obtain ⟨l, hl, hv⟩ := List.mem_flatMap.1 hv
            obtain ⟨e, hk, hm, hfn, hx⟩ := mem_invocationsAt hv
            rw [(hck.1 _ hk hm).2 (hfn.trans hf)] at hx
            rw [e] at hon' ⊢
            refine List.mem_filter.2 ⟨?_, ?_⟩
            · rw [hon]
              exact mem_orderingWalk _ _ (hrw ▸ hl) (.inr (c001Exempt_of_not_excepted hx))
            · rw [hf] at hon'
              refine decide_eq_true ?_
              intro e'; rw [e'] at hon'
              revert hon'; decide)
          (by
            rw [hw] at hpair
            have hpair := (List.pairwise_cons.1 hpair).2
            refine List.pairwise_flatMap.2 ⟨?_, ?_⟩
            · intro l _
              refine List.pairwise_of_forall_mem_list ?_
              intro a ha b hb
              rw [(mem_invocationsAt ha).1, (mem_invocationsAt hb).1]
              exact List.le_refl _
            · refine hpair.imp ?_
              intro a b hab x hx y hy
              rw [(mem_invocationsAt hx).1, (mem_invocationsAt hy).1]
              exact List.le_of_lt hab) a2 a3 (.inl rfl)
        rw [hvs, execute_append, a1]
        refine ⟨⟨s₂, b1, b2⟩, ?_⟩
        intro vr hvr
        rcases List.mem_append.1 hvr with h | h
        · exact a5 vr h
        · exact b4 vr h
      · refine execute_plain hc vs hinv (.inr ?_) hst
        intro v hv hf
        obtain ⟨l, hl, hv⟩ := List.mem_flatMap.1 hv
        obtain ⟨-, hk, hm, e, -⟩ := mem_invocationsAt hv
        exact hhook (hck.2 _ hk hm (e.trans hf))
  · exact execute_plain hc vs hinv (.inl hfl) hst

theorem HooksWell.run {F' : Type} {exec : Exec CheckFn F'} {suppress : Bool} {ck : Checks CheckFn} (hck : HooksWell ck)
    (data : CheckData) (ts : List Tree) (s : RunState F') :
    HooksWell (runChecksOnOneFile exec suppress ck data (Loc.ofForest ts) s).1 := by
  obtain ⟨rs, -, h2, -⟩ := C06_counters exec suppress ck data ts s
  have back : ∀ fl, ∀ h ∈ (runChecksOnOneFile exec suppress ck data (Loc.ofForest ts) s).1 fl,
      ∃ h' ∈ ck fl, h'.fn = h.fn ∧ h'.id = h.id := by
    intro fl hk hm
    obtain ⟨i, hi⟩ := List.mem_iff_getElem?.1 hm
    rw [h2 fl i] at hi
    cases hg : (ck fl)[i]? with
    | none => rw [hg] at hi; cases hi
    | some hk' =>
      rw [hg] at hi; cases hi
      exact ⟨hk', List.mem_iff_getElem?.2 ⟨i, hg⟩, rfl, rfl⟩
  have forth : ∀ fl, ∀ h ∈ ck fl,
      ∃ h' ∈ (runChecksOnOneFile exec suppress ck data (Loc.ofForest ts) s).1 fl, h'.fn = h.fn := by
    intro fl hk hm
    obtain ⟨i, hi⟩ := List.mem_iff_getElem?.1 hm
    have := h2 fl i
    rw [hi] at this
    exact ⟨_, List.mem_iff_getElem?.2 ⟨i, this⟩, rfl⟩
  refine ⟨?_, ?_⟩
  · intro fl hk hm
    obtain ⟨h', hm', e1, e2⟩ := back fl hk hm
    rw [← e1, ← e2]; exact hck.1 fl h' hm'
  · intro fl hk hm e
    obtain ⟨h', hm', e1, -⟩ := back fl hk hm
    obtain ⟨h₂, hm₂, e₂⟩ := hck.2 fl h' hm' (e1.trans e)
    obtain ⟨h₃, hm₃, e₃⟩ := forth _ h₂ hm₂
    exact ⟨h₃, hm₃, e₃.trans e₂⟩

theorem execute_mem' {F σ : Type} {exec : Exec F σ} {data : CheckData} {invs : List (Invocation F)} {st : σ}
    {v : Invocation F} {r : Option CheckResult} (h : (v, r) ∈ (execute exec data invs st).2) : v ∈ invs := by
  induction invs generalizing st with
  | nil => simp [execute] at h
  | cons i is ih =>
    simp only [execute, List.mem_cons, Prod.mk.injEq] at h
    rcases h with ⟨rfl, rfl⟩ | h
    · exact .head _
    · exact .tail _ (ih h)

/-- The checks over a file: the state stays defined, the hooks stay well formed, and the internal
errors in the output are known ones. -/
theorem file_safe {m : Maps} (hc : ∀ c, ¬OnCycle m c) {ck : Checks CheckFn} (hck : HooksWell ck)
    (suppress : Bool) {data : CheckData} {ts : List Tree} (hts : Checkable data.flavor ts)
    {s : RunState (Res Statics)} (hst : StOk m s.st) :
    let r := runChecksOnOneFile (selintExec m) suppress ck data (Loc.ofForest ts) s
    HooksWell r.1 ∧ StOk m r.2.st ∧
    ∀ f ∈ r.2.out, f ∈ s.out ∨ (f.result.severity = 'F' →
      ∃ l : Loc, l.unzip = ts ∧ f.lineno = l.info.lineno ∧ KnownInternal l.info l.focus.children f.result) := by
  intro r
  refine ⟨hck.run data ts s, ?_⟩
  have hv := visits_ok (data := data) hc hck hts hst
  simp only at hv
  have hr : r.2 = _ := run_spec (selintExec m) suppress ck data ts s
  rw [hr]
  unfold specState
  simp only [execute_append]
  obtain ⟨⟨s₁, e₁, hpm⟩, hres⟩ := hv
  rw [e₁]
  have hcl := execute_cleanup (m := m) (data := data) (invocationsAt ck cleanupLoc) (by
    intro v hv
    obtain ⟨e, hk, hm, hf, -⟩ := mem_invocationsAt hv
    refine ⟨e, ?_⟩
    rw [← hf]
    exact only_teOrder (hck.1 _ hk hm).1 (.inr rfl)) hpm
  refine ⟨hcl.1, ?_⟩
  intro f hf
  split at hf
  · exact .inl hf
  · rw [List.mem_append] at hf
    refine hf.imp id fun hf => ?_
    simp only [findings, List.mem_filterMap, Option.map_eq_some_iff] at hf
    obtain ⟨⟨v, r⟩, hvr, res, e, rfl⟩ := hf
    simp only at e; subst e
    intro hsev
    rcases List.mem_append.1 hvr with h | h
    · have hk := hres _ h res rfl hsev
      obtain ⟨l, hl, hv⟩ := List.mem_flatMap.1 (execute_mem' h)
      obtain ⟨rfl, -⟩ := mem_invocationsAt hv
      refine ⟨v.node, ?_, rfl, hk⟩
      simpa [Loc.plug] using Tree.unzip_of_mem_locsList [] ts [] v.node hl
    · have := hcl.2 _ h
      cases this

end Selint
