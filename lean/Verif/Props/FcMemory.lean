import Verif.Lemmas.FcInMemory
import Verif.Props.ParseMemory
/-!
# C86: what reading a file context file leaves in memory
-/

namespace Selint
open Spec

theorem statements_loc (ns : List FcNode) : ∀ st : PState,
    (ns.foldl (fun st n => st.statement n.data n.lineno) st).loc =
      ns.foldl (fun l n => l.addNext ⟨n.data, none, n.lineno⟩) st.loc := by
  induction ns with
  | nil => intro st; rfl
  | cons n ns ih => intro st; exact ih _

theorem addNexts_unzip (ns : List FcNode) : ∀ l : Loc, l.rights = [] → l.ups = [] →
    (ns.foldl (fun l n => l.addNext ⟨n.data, none, n.lineno⟩) l).unzip = l.unzip ++ fcTrees ns := by
  induction ns with
  | nil => intro l _ _; simp [fcTrees]
  | cons n ns ih =>
    intro l hr hu
    obtain ⟨f, ls, rs, us⟩ := l
    subst hr hu
    refine (ih _ rfl rfl).trans ?_
    simp [fcTrees, Loc.addNext, Loc.unzip, Loc.plug, Loc.siblings]

theorem exceptionsBelow_fcTrees (ns : List FcNode) : exceptionsBelow (fcTrees ns) = 0 := by
  induction ns with
  | nil => rfl
  | cons n ns ih => simpa [fcTrees, exceptionsBelow, exceptionsIn, hasExceptions] using ih

/-- The end of a file, when nothing is held any more. -/
theorem Inv.closed {m₀ : Mem} {ast : Addr} {ms : MState} {st : PState} {k : Nat} (hb : Bounded m₀)
    (h : Inv ast m₀ (List.range m₀.top) ms st [] k) :
    ∃ T L, NodesAt ms.mem none none (some ast) st.loc.unzip T ∧ StringsAt ms.mem L ∧
      Grows m₀ ms.mem (T ++ L) ∧ L.length + exceptionsBelow st.loc.unzip = k := by
  obtain ⟨⟨T, L, hs, hT, hL, hH, ho, hkk⟩, hfr, h₁, h₂, h₃⟩ := h
  cases hH
  rw [List.append_nil] at ho
  obtain ⟨⟨focus, lefts, rights, ups⟩, mp, md, rt⟩ := st
  simp only at hT hkk
  have hnd : T.Nodup := by
    have := ho.nodup
    simp only [List.nodup_append] at this
    exact this.1.1
  obtain ⟨rs, hrs, hperm⟩ := CurAt.forest _ hT hnd
  have hnd' : (rs ++ L ++ List.range m₀.top).Nodup :=
    List.Perm.nodup ((hperm.symm.append_right L).append_right _) ho.nodup
  refine ⟨rs, L, hrs, hL, ⟨(List.nodup_append.1 hnd').1, ?_, ?_⟩, ?_⟩
  · intro q hq
    constructor
    · refine hb q ?_
      have := (List.nodup_append.1 hnd').2.2 q hq
      simp only [List.mem_range] at this
      exact Nat.le_of_not_lt fun hlt => this q hlt rfl
    · have hl : Live ms.mem L := fun q hq => by
        obtain ⟨s, hs⟩ := hL q hq
        simp [hs]
      exact (hrs.live.append hl) q hq
  · intro q hq
    by_cases hlt : q < m₀.top
    · exact hfr q (List.mem_range.2 hlt)
    · rw [hb q (Nat.le_of_not_lt hlt)]
      refine ho.only q ?_
      simp only [List.mem_append, List.mem_range, not_or, hperm.mem_iff] at hq ⊢
      exact ⟨hq, hlt⟩
  · rw [exceptionsBelow_unzip]
    omega

/-- A file that the functional model reads is read without undefined behaviour. -/
theorem C86_parse {macros : List Str} {lines : List FcInput} {ns : List FcNode}
    (h : parseFcFile macros (some lines) = .ok (some ns)) {m₀ : Mem} (hb : Bounded m₀) :
    ∃ ast cur m T L, Mem.parseFcFile macros lines m₀ = .ok (ast, cur, m) ∧
      FcParsed m₀ ns ast m T L := by
  obtain ⟨ns', e, h⟩ := Res.bind_eq_ok h
  cases h
  have h₀ := Inv.init hb .fcFile [] {}
  obtain ⟨ms, l, e₁, hl, h⟩ := Inv.parseFcLines (H := []) (line := none) macros lines h₀ e
  have e₂ : Mem.parseFcFile macros lines m₀ = .ok (m₀.top, ms.cur, ms.mem) := by
    unfold Mem.parseFcFile
    exact congrArg (· >>= fun r => Res.ok (m₀.top, r.1, r.2)) e₁
  have hz : ((ns'.foldl (fun st n => st.statement n.data n.lineno)
      (PState.init .fcFile [] {})).loc).unzip = fcTrees (⟨.plain .fcFile none, 0⟩ :: ns') := by
    rw [statements_loc, addNexts_unzip _ _ rfl rfl]
    rfl
  obtain ⟨T, L, h₁, h₂, h₃, h₄⟩ := h.closed hb
  rw [hz] at h₁ h₄
  rw [exceptionsBelow_fcTrees] at h₄
  refine ⟨_, _, _, T, L, e₂, ⟨h₁, h₂, ?_, h₃⟩⟩
  rw [List.map_cons, List.sum_cons]
  omega

/-- Freeing the list afterwards frees all that was allocated, but the lost strings. -/
theorem C86_release {m₀ : Mem} {ns ast m T L} (h : FcParsed m₀ ns ast m T L) :
    ∃ m', (∀ fuel, T.length ≤ fuel → m.freePolicyNode fuel (some ast) = .ok m') ∧
      Grows m₀ m' L ∧ ∀ q ∈ L, m'.obj q = m.obj q := by
  obtain ⟨hnd, hnew, hsame⟩ := h.grows
  have hd := (List.nodup_append.1 hnd).2.2
  have hkeep : ∀ q ∈ L, q ∉ T := fun q hq hT => hd q hT q hq rfl
  refine ⟨_, fun fuel hf => C81_tree h.tree hf, ⟨(List.nodup_append.1 hnd).2.1, ?_, ?_⟩, ?_⟩
  · intro q hq
    have := hnew q (List.mem_append.2 (.inr hq))
    rw [dropped_obj, if_neg (hkeep q hq)]
    exact this
  · intro q hq
    rw [dropped_obj]
    split
    · exact (hnew q (List.mem_append.2 (.inl ‹_›))).1.symm
    · exact hsame q (by simp_all)
  · intro q hq
    rw [dropped_obj, if_neg (hkeep q hq)]

/-- A file without contexts that are written with `gen_context` leaves nothing behind. -/
theorem C86_nothing_left {macros : List Str} {lines : List FcInput} {ns : List FcNode}
    (h : parseFcFile macros (some lines) = .ok (some ns)) {m₀ : Mem} (hb : Bounded m₀)
    (hg : ∀ n ∈ ns, ∀ e c, n.data = .fc e → e.context = some c → c.hasGenContext = false) :
    ∃ ast cur m n m', Mem.parseFcFile macros lines m₀ = .ok (ast, cur, m) ∧
      (∀ fuel, n ≤ fuel → m.freePolicyNode fuel (some ast) = .ok m') ∧
      ∀ q, m'.obj q = m₀.obj q := by
  obtain ⟨ast, cur, m, T, L, hr, hP⟩ := C86_parse h hb
  obtain ⟨m', hm, hg', -⟩ := C86_release hP
  refine ⟨ast, cur, m, _, m', hr, hm, fun q => hg'.same q ?_⟩
  have hz : (ns.map fun n => genContexts n.data).sum = 0 := by
    rw [List.sum_eq_zero_iff_forall_eq_nat]
    intro x hx
    obtain ⟨n, hn, rfl⟩ := List.mem_map.1 hx
    have := hg n hn
    cases hd : n.data with
    | fc e =>
      obtain ⟨path, obj, c⟩ := e
      cases c with
      | none => rfl
      | some c => simp [genContexts, this _ c hd rfl]
    | _ => rfl
  have hL : L = [] := List.length_eq_zero_iff.1 (by have := hP.few; omega)
  simp [hL]

/-! ## Cases -/

/-- Empty memory. -/
def noMem : Mem := ⟨fun _ => none, 0⟩

/-- ```
/bin/x	--	system_u:object_r:bin_t:s0
what
/dev/y	-c	<<none>>
``` -/
def plainLines : List FcInput :=
  [⟨cs!"/bin/x\t--\tsystem_u:object_r:bin_t:s0\n", 35, []⟩, ⟨cs!"what\n", 5, []⟩,
    ⟨cs!"/dev/y\t-c\t<<none>>\n", 19, []⟩]

/-- The nodes of `plainLines`: the second line is an error. -/
def plainNodes : List FcNode :=
  [⟨.plain .fcFile none, 0⟩,
    ⟨.fc ⟨cs!"/bin/x", some '-', some ⟨false, cs!"system_u", cs!"object_r", cs!"bin_t", some cs!"s0\n"⟩⟩, 1⟩,
    ⟨.plain .error none, 2⟩, ⟨.fc ⟨cs!"/dev/y", some 'c', none⟩, 3⟩]

example : parseFcFile [] (some plainLines) = .ok (some plainNodes) := by decide +kernel

/-- What is allocated after a file has been read and its nodes have been freed, beginning with
empty memory. -/
def leftAfter (lines : List FcInput) : Res (List (Addr × Obj)) := do
  let (ast, _, m) ← Mem.parseFcFile [] lines noMem
  let m ← m.freePolicyNode m.top (some ast)
  .ok ((List.range m.top).filterMap fun q => (m.obj q).map (q, ·))

example : leftAfter plainLines = .ok [] := by decide +kernel

/-- ```
/bin/x	gen_context(system_u:object_r:bin_t,s0)
``` -/
def genLines : List FcInput :=
  [⟨cs!"/bin/x\tgen_context(system_u:object_r:bin_t,s0)\n", 47, []⟩]

example : leftAfter genLines = .ok [] := by decide +kernel

/-- ```
/bin/x	gen_context(system_u:object_r:bin_t:s0,s1)
/bin/y	gen_context(system_u:object_r:bin_t:s2)
``` -/
def lostLines : List FcInput :=
  [⟨cs!"/bin/x\tgen_context(system_u:object_r:bin_t:s0,s1)\n", 50, []⟩,
    ⟨cs!"/bin/y\tgen_context(system_u:object_r:bin_t:s2)\n", 47, []⟩]

/-- The nodes of `lostLines`. -/
def lostNodes : List FcNode :=
  [⟨.plain .fcFile none, 0⟩,
    ⟨.fc ⟨cs!"/bin/x", none, some ⟨true, cs!"system_u", cs!"object_r", cs!"bin_t", some cs!"s1"⟩⟩, 1⟩,
    ⟨.fc ⟨cs!"/bin/y", none, some ⟨true, cs!"system_u", cs!"object_r", cs!"bin_t", none⟩⟩, 2⟩]

example : parseFcFile [] (some lostLines) = .ok (some lostNodes) := by decide +kernel

example : Bounded noMem := fun _ _ => rfl

/-- A range inside of `gen_context` is lost: the bound of `C86_parse` is attained. -/
theorem C86_range_lost :
    leftAfter lostLines = .ok [(9, .bytes cs!"s0"), (20, .bytes cs!"s2")] ∧
      (lostNodes.map fun n => genContexts n.data).sum = 2 := by
  decide +kernel

end Selint
