import Verif.Lemmas.Owning
import Verif.Spec.ListsInMemory
/-! # The linked lists of checks, macros and sections -/

namespace Selint

open Spec

section
variable {α : Type} {cell : α → Addr → Option Addr → Obj} {name : α → Str}

theorem Spec.ChainAt.congr {m m' : Mem} {p l ps} (h : ChainAt cell name m p l ps)
    (he : EqOn m m' ps) : ChainAt cell name m' p l ps := by
  induction h with
  | nil => exact .nil
  | @cons p a n x l ps h₁ h₂ h₃ hn ih =>
    exact .cons ((he p (by simp)).trans h₁) ((he a (by simp)).trans h₂)
      (ih (he.mono (by simp +contextual))) hn

theorem Spec.ChainAt.live {m : Mem} {p l ps} (h : ChainAt cell name m p l ps) : Live m ps := by
  induction h with
  | nil => simp [Live]
  | cons h₁ h₂ h₃ hn ih =>
    intro q hq
    simp only [List.mem_cons] at hq
    rcases hq with rfl | rfl | hq
    · simp [h₂]
    · simp [h₁]
    · exact ih q hq

theorem Spec.ChainAt.nodup {m : Mem} {p l ps} (h : ChainAt cell name m p l ps) : ps.Nodup := by
  cases h <;> simp_all

theorem Spec.ChainAt.length {m : Mem} {p l ps} (h : ChainAt cell name m p l ps) :
    ps.length = 2 * l.length := by
  induction h with
  | nil => rfl
  | cons h₁ h₂ h₃ hn ih => simp [ih]; omega

theorem Spec.ChainAt.fuel {m : Mem} {p l ps R} (h : ChainAt cell name m p l ps)
    (ho : Owns m (ps ++ R)) : l.length ≤ m.top := by
  have := h.length
  have := ho.length_le
  simp only [List.length_append] at this
  omega

theorem dropped_perm {m : Mem} {ps qs : List Addr} (h : ps.Perm qs) : dropped m ps = dropped m qs := by
  simp only [dropped, h.mem_iff]

end

/-! ## Freeing -/

theorem freeCheckNode_eq {m : Mem} {p l ps} (h : ChecksAt m p l ps) :
    ∀ {m' : Mem} {fuel : Nat}, EqOn m m' ps → l.length ≤ fuel →
      Mem.freeCheckNode fuel m' p = .ok (dropped m' ps) := by
  induction h with
  | nil => intro m' fuel _ _; cases fuel <;> simp [Mem.freeCheckNode, dropped]
  | @cons p a n x l ps h₁ h₂ h₃ hn ih =>
    intro m' fuel he hf
    cases fuel with
    | zero => simp at hf
    | succ fuel =>
      have e₁ := (he p (by simp)).trans h₁
      have e₂ := (he a (by simp)).trans h₂
      rw [Mem.freeCheckNode, get_eq e₁ (f := Obj.check?) rfl, Res.bind_ok]
      simp only
      rw [free_ok (by simp [e₂]), Res.bind_ok, step_one (by simp [e₁]) (by grind), Res.bind_ok,
        ih (m' := dropped m' ([a] ++ [p])) ((he.mono (by simp +contextual)).trans
          (eqOn_dropped m' (by grind))) (by simpa using hf), dropped_dropped]
      rfl

theorem freePermMacro_eq {m : Mem} {p l ps} (h : MacrosAt m p l ps) :
    ∀ {m' : Mem} {fuel : Nat}, EqOn m m' ps → l.length ≤ fuel →
      Mem.freePermMacro fuel m' p = .ok (dropped m' ps) := by
  induction h with
  | nil => intro m' fuel _ _; cases fuel <;> simp [Mem.freePermMacro, dropped]
  | @cons p a n x l ps h₁ h₂ h₃ hn ih =>
    intro m' fuel he hf
    cases fuel with
    | zero => simp at hf
    | succ fuel =>
      have e₁ := (he p (by simp)).trans h₁
      have e₂ := (he a (by simp)).trans h₂
      rw [Mem.freePermMacro, get_eq e₁ (f := Obj.permMacro?) rfl, Res.bind_ok]
      simp only
      rw [free_ok (by simp [e₂]), Res.bind_ok, step_one (by simp [e₁]) (by grind), Res.bind_ok,
        ih (m' := dropped m' ([a] ++ [p])) ((he.mono (by simp +contextual)).trans
          (eqOn_dropped m' (by grind))) (by simpa using hf), dropped_dropped]
      rfl

theorem freeSectionData_eq {m : Mem} {p l ps} (h : SectionChain m p l ps) :
    ∀ {m' : Mem} {fuel : Nat}, EqOn m m' ps → l.length ≤ fuel →
      Mem.freeSectionData fuel m' p = .ok (dropped m' ps) := by
  induction h with
  | nil => intro m' fuel _ _; cases fuel <;> simp [Mem.freeSectionData, dropped]
  | @cons p a n x l ps h₁ h₂ h₃ hn ih =>
    intro m' fuel he hf
    cases fuel with
    | zero => simp at hf
    | succ fuel =>
      have e₁ := (he p (by simp)).trans h₁
      have e₂ := (he a (by simp)).trans h₂
      rw [Mem.freeSectionData, get_eq e₁ (f := Obj.sect?) rfl, Res.bind_ok]
      simp only
      rw [free_ok (by simp [e₂]), Res.bind_ok,
        ih (m' := dropped m' [a]) ((he.mono (by simp +contextual)).trans
          (eqOn_dropped m' (by grind))) (by simpa using hf), dropped_dropped, Res.bind_ok,
        step_one (by simp [e₁]) (by grind)]
      exact congrArg Res.ok (dropped_perm (by pieces))

/-! ## Checks -/

theorem last_check {m : Mem} {p l ps} (h : ChecksAt m p l ps) :
    ∀ {cur fuel}, p = some cur → l.length ≤ fuel → ∃ loc c, Mem.lastCheck fuel m cur = .ok loc ∧
      m.obj loc = some (.check c) ∧ loc ∈ ps ∧
      ∀ (m' : Mem) (q b : Addr) (x : CheckNode Nat), EqOn m m' (ps.filter (· ≠ loc)) →
        m'.obj loc = some (.check { c with next := some q }) →
        m'.obj q = some (checkCell x b none) → m'.obj b = some (.bytes x.id) → q ∉ ps → b ∉ ps →
        q ≠ b → ChecksAt m' (some cur) (l ++ [x]) (ps ++ [b, q]) := by
  induction h with
  | nil => intro _ _ h; cases h
  | @cons p a n x l ps h₁ h₂ h₃ hn ih =>
    intro cur fuel hc hf
    cases hc
    cases fuel with
    | zero => simp at hf
    | succ fuel =>
      simp only [Mem.lastCheck]
      rw [get_eq h₁ (f := Obj.check?) rfl, Res.bind_ok]
      simp only
      cases n with
      | none =>
        cases h₃
        refine ⟨p, _, rfl, h₁, by simp, fun m' q b y he e₁ e₂ e₃ hq hb hqb => ?_⟩
        refine .cons e₁ ((he a ?_).trans h₂) (.cons e₂ e₃ .nil ?_) ?_
        · simp; grind
        · grind
        · have : ([a, p] ++ [b, q]).Nodup := by grind
          exact this
      | some n =>
        obtain ⟨loc, c, e, f, hm, step⟩ := ih rfl (by simpa using hf)
        refine ⟨loc, c, e, f, by simp [hm], fun m' q b y he e₁ e₂ e₃ hq hb hqb => ?_⟩
        have hlp : loc ≠ p := by rintro rfl; grind
        have hla : loc ≠ a := by rintro rfl; grind
        refine .cons ((he p ?_).trans h₁) ((he a ?_).trans h₂) (step m' q b y ?_ e₁ e₂ e₃ ?_ ?_ hqb) ?_
        · simp; grind
        · simp; grind
        · refine he.mono fun z hz => ?_
          simp only [List.mem_filter] at hz ⊢
          exact ⟨by simp [hz.1], hz.2⟩
        · grind
        · grind
        · have : (a :: p :: (ps ++ [b, q])).Nodup := by grind
          exact this

theorem add_check {m : Mem} {ck : CheckHeads} {fl : NodeFlavor} {l ps R} (id : Str) (fn : Nat)
    (h : ChecksAt m (ck fl) l ps) (ho : Owns m (ps ++ R)) :
    ∃ m' hd qs, m.addCheck ck fl id fn = .ok (fun g => if g = fl then hd else ck g, m') ∧
      ChecksAt m' hd (l ++ [⟨fn, id, 0⟩]) qs ∧ Owns m' (qs ++ R) ∧ EqOn m m' R := by
  have hpl : ∀ q ∈ ps, q < m.top := fun q hq => ho.below q (by simp [hq])
  have hrl : ∀ q ∈ R, q < m.top := fun q hq => ho.below q (by simp [hq])
  cases hh : ck fl with
  | none =>
    rw [hh] at h
    cases h
    simp only [Mem.addCheck, Mem.allocCheck, hh, Res.bind_ok]
    rw [write_wrote (by simp [malloc_obj]), Res.bind_ok]
    refine ⟨_, some m.top, [m.top + 1, m.top], rfl, .cons (wrote_self _ _ _) ?_ .nil ?_, ?_, ?_⟩
    · rw [wrote_other _ _ (by simp)]; exact malloc_self _ _
    · simp
    · exact (((ho.malloc .raw).malloc (.bytes id)).wrote (by simp) _).perm
        (by simp only [malloc_top]; pieces)
    · refine EqOn.trans ?_ (eqOn_wrote (fun hq => ?_) _)
      · exact (eqOn_malloc ho .raw).trans ((eqOn_malloc (ho.malloc .raw) _).mono (by simp +contextual))
      · have := hrl _ hq; simp at this
  | some hd =>
    rw [hh] at h
    obtain ⟨loc, c, e, f, hm, step⟩ := last_check h rfl (h.fuel ho)
    have hlt := hpl loc hm
    simp only [Mem.addCheck, Mem.allocCheck, hh, e, Res.bind_ok]
    rw [get_eq f (f := Obj.check?) rfl, Res.bind_ok]
    have f' : (m.malloc .raw).2.obj loc = some (.check c) := by
      rw [malloc_obj, if_neg (by omega), f]
    rw [write_wrote (by simp [f']), Res.bind_ok]
    simp only [malloc_fst, Res.bind_ok]
    rw [write_wrote (by rw [malloc_obj, if_neg (by simp [wrote])]
                        rw [wrote_other _ _ (by omega)]; simp [malloc_obj]), Res.bind_ok]
    have ht : (wrote (m.malloc .raw).2 loc (.check { c with next := some m.top })).top = m.top + 1 := rfl
    refine ⟨_, some hd, ps ++ [m.top + 1, m.top], rfl, ?_, ?_, ?_⟩
    · refine step _ m.top (m.top + 1) ⟨fn, id, 0⟩ ?_ ?_ ?_ ?_ ?_ ?_ (by omega)
      · intro z hz
        simp only [List.mem_filter, decide_eq_true_eq] at hz
        have := hpl z hz.1
        rw [wrote_other _ _ (by omega), malloc_obj, ht, if_neg (by omega), wrote_other _ _ hz.2,
          malloc_obj, if_neg (by omega)]
      · rw [wrote_other _ _ (by omega), malloc_obj, ht, if_neg (by omega), wrote_self]
      · rw [wrote_self, ht]; rfl
      · rw [wrote_other _ _ (by omega), malloc_obj, ht, if_pos rfl]
      · intro hq; have := hpl _ hq; omega
      · intro hq; have := hpl _ hq; omega
    · have := ((((ho.malloc .raw).wrote (p := loc) (by simp [hm])
        (.check { c with next := some m.top })).malloc (.bytes id)).wrote (p := m.top)
          (by simp) (.check ⟨fn, some (m.top + 1), 0, none⟩))
      rw [ht] at this ⊢
      exact this.perm (by pieces)
    · intro z hz
      have := hrl z hz
      have hne : z ≠ loc := by rintro rfl; exact ho.disjoint z hz hm
      rw [wrote_other _ _ (by omega), malloc_obj, ht, if_neg (by omega), wrote_other _ _ hne,
        malloc_obj, if_neg (by omega)]

theorem free_result {m : Mem} {r a : Addr} {c : ResultObj} {s : Str} {R : List Addr}
    (h : m.obj r = some (.result c)) (hc : c.message = some a) (ha : m.obj a = some (.bytes s))
    (ho : Owns m ([r, a] ++ R)) :
    ∃ m', m.freeCheckResult (some r) = .ok m' ∧ Owns m' R ∧ EqOn m m' R := by
  rw [Mem.freeCheckResult, get_eq h (f := Obj.result?) rfl, Res.bind_ok, hc,
    free_ok (by simp [ha]), Res.bind_ok, step_one (by simp [h]) (by have := ho.nodup; grind)]
  have ho' : Owns m ([a] ++ [r] ++ R) := ho.perm (by pieces)
  exact ⟨_, rfl, ho'.dropped, ho'.eqOn_dropped⟩

theorem call_check_list {σ : Type} (exec : Exec Nat σ) (suppress : Bool) (data : CheckData)
    (node : Loc) : ∀ (l : List (CheckNode Nat)) {fuel : Nat} {m : Mem} {p ps R} (s : RunState σ),
      ChecksAt m p l ps → Owns m (ps ++ R) → l.length ≤ fuel →
      ∃ m', Mem.callCheckList exec suppress data node fuel m p s =
          .ok (m', (callChecksForNodeType exec suppress data node l s).2) ∧
        ChecksAt m' p (callChecksForNodeType exec suppress data node l s).1 ps ∧
        Owns m' (ps ++ R) ∧ EqOn m m' R := by
  intro l
  induction l with
  | nil =>
    intro fuel m p ps R s h ho _
    cases h
    refine ⟨m, ?_, .nil, ho, EqOn.refl m R⟩
    cases fuel <;> simp [Mem.callCheckList, callChecksForNodeType]
  | cons x l ih =>
    intro fuel m p ps R s h ho hf
    cases h with
    | @cons p a n _ _ ps h₁ h₂ h₃ hn =>
    cases fuel with
    | zero => simp at hf
    | succ fuel =>
      have hf' : l.length ≤ fuel := by simpa using hf
      have ho' : Owns m (ps ++ (a :: p :: R)) := ho.perm (by pieces)
      simp only [Mem.callCheckList, callChecksForNodeType]
      rw [get_eq h₁ (f := Obj.check?) rfl, Res.bind_ok]
      simp only [Mem.getAt]
      rw [get_eq h₂ (f := Obj.str?) rfl, Res.bind_ok]
      by_cases hs : skipHook x.id node = true
      · simp only [hs, if_true]
        obtain ⟨m', e, f₁, f₂, f₃⟩ := ih s h₃ ho' hf'
        refine ⟨m', e, .cons ((f₃ p (by simp)).trans h₁) ((f₃ a (by simp)).trans h₂) f₁ hn,
          f₂.perm (by pieces), f₃.mono (by simp +contextual)⟩
      · simp only [hs, if_false, Bool.false_eq_true]
        cases hx : exec x.fn data node s.st with
        | mk st' o =>
        cases o with
        | none =>
          simp only
          obtain ⟨m', e, f₁, f₂, f₃⟩ := ih { s with st := st' } h₃ ho' hf'
          refine ⟨m', e, .cons ((f₃ p (by simp)).trans h₁) ((f₃ a (by simp)).trans h₂) f₁ hn,
            f₂.perm (by pieces), f₃.mono (by simp +contextual)⟩
        | some res =>
          simp only [Mem.makeCheckResult, malloc_fst, malloc_top]
          have hp : p < m.top := ho.below p (by simp)
          have ha : a < m.top := ho.below a (by simp)
          have ho₁ := (ho.malloc (.bytes res.message)).malloc
            (.result ⟨res.severity, res.checkId, 0, some m.top⟩)
          have he₁ : EqOn m (((m.malloc (.bytes res.message)).2.malloc
              (.result ⟨res.severity, res.checkId, 0, some m.top⟩)).2) (a :: p :: ps ++ R) :=
            (eqOn_malloc ho _).trans ((eqOn_malloc (ho.malloc _) _).mono (by simp +contextual))
          have g₁ : (((m.malloc (.bytes res.message)).2.malloc
              (.result ⟨res.severity, res.checkId, 0, some m.top⟩)).2).obj m.top =
              some (.bytes res.message) := by
            rw [malloc_obj, if_neg (by simp), malloc_self]
          have g₂ : (((m.malloc (.bytes res.message)).2.malloc
              (.result ⟨res.severity, res.checkId, 0, some m.top⟩)).2).obj (m.top + 1) =
              some (.result ⟨res.severity, res.checkId, 0, some m.top⟩) := malloc_self _ _
          simp only [malloc_top] at ho₁
          generalize ((m.malloc (.bytes res.message)).2.malloc
              (.result ⟨res.severity, res.checkId, 0, some m.top⟩)).2 = m₁ at ho₁ he₁ g₁ g₂ ⊢
          have k₁ := (he₁ p (by simp)).trans h₁
          rw [write_wrote (by simp [k₁]), Res.bind_ok]
          have ho₂ := ho₁.wrote (p := p) (by simp)
            (.check ⟨x.fn, some a, x.issuesFound + 1, n⟩)
          rw [get_eq (f := Obj.result?) ((wrote_other _ _ (by omega)).trans g₂) rfl, Res.bind_ok]
          rw [write_wrote (by rw [wrote_other _ _ (by omega)]; simp [g₂]), Res.bind_ok]
          have ho₃ := ho₂.wrote (p := m.top + 1) (by simp)
            (.result ⟨res.severity, res.checkId, node.info.lineno, some m.top⟩)
          have w₁ : (wrote (wrote m₁ p (.check ⟨x.fn, some a, x.issuesFound + 1, n⟩)) (m.top + 1)
              (.result ⟨res.severity, res.checkId, node.info.lineno, some m.top⟩)).obj m.top =
              some (.bytes res.message) := by
            rw [wrote_other _ _ (by omega), wrote_other _ _ (by omega), g₁]
          have w₂ : (wrote (wrote m₁ p (.check ⟨x.fn, some a, x.issuesFound + 1, n⟩)) (m.top + 1)
              (.result ⟨res.severity, res.checkId, node.info.lineno, some m.top⟩)).obj (m.top + 1) =
              some (.result ⟨res.severity, res.checkId, node.info.lineno, some m.top⟩) :=
            wrote_self _ _ _
          have w₃ : (wrote (wrote m₁ p (.check ⟨x.fn, some a, x.issuesFound + 1, n⟩)) (m.top + 1)
              (.result ⟨res.severity, res.checkId, node.info.lineno, some m.top⟩)).obj p =
              some (checkCell { x with issuesFound := x.issuesFound + 1 } a n) := by
            rw [wrote_other _ _ (by omega), wrote_self]; rfl
          have w₄ : EqOn m (wrote (wrote m₁ p (.check ⟨x.fn, some a, x.issuesFound + 1, n⟩))
              (m.top + 1) (.result ⟨res.severity, res.checkId, node.info.lineno, some m.top⟩))
              (a :: ps ++ R) := by
            intro z hz
            have hzt : z < m.top := ho.below z (by simp at hz ⊢; grind)
            have hzp : z ≠ p := by
              rintro rfl
              have := ho.nodup
              simp at hz
              grind
            rw [wrote_other _ _ (by omega), wrote_other _ _ hzp, he₁ z (by simp at hz ⊢; grind)]
          generalize wrote (wrote m₁ p (.check ⟨x.fn, some a, x.issuesFound + 1, n⟩))
              (m.top + 1) (.result ⟨res.severity, res.checkId, node.info.lineno, some m.top⟩) = m₃
            at ho₃ w₁ w₂ w₃ w₄ ⊢
          have hr : m₃.readResult data (m.top + 1) = .ok ⟨data.filename, node.info.lineno, res⟩ := by
            rw [Mem.readResult, get_eq w₂ (f := Obj.result?) rfl, Res.bind_ok]
            simp only [Mem.getAt]
            rw [get_eq w₁ (f := Obj.str?) rfl, Res.bind_ok]
          rw [hr, Res.bind_ok]
          obtain ⟨m₄, e₄, ho₄, he₄⟩ := free_result (R := a :: p :: ps ++ R) w₂ rfl w₁
            (ho₃.perm (by pieces))
          rw [e₄, Res.bind_ok]
          obtain ⟨m', e, f₁, f₂, f₃⟩ := ih (fuel := fuel) (m := m₄) (R := a :: p :: R)
            { foundIssue := true, st := st',
              out := if suppress then s.out
                     else s.out ++ [⟨data.filename, node.info.lineno, res⟩] }
            (h₃.congr ((w₄.mono (by simp +contextual)).trans (he₄.mono (by simp +contextual))))
            (ho₄.perm (by pieces)) hf'
          refine ⟨m', e, .cons ((f₃ p (by simp)).trans ((he₄ p (by simp)).trans w₃))
            ((f₃ a (by simp)).trans ((he₄ a (by simp)).trans ((w₄ a (by simp)).trans h₂))) f₁ hn,
            f₂.perm (by pieces), ?_⟩
          exact ((w₄.mono (by simp +contextual)).trans (he₄.mono (by simp +contextual))).trans
            (f₃.mono (by simp +contextual))

/-! ## Permission macros -/

/-- The place is found behind the element at `pr`. -/
theorem place_macro {m : Mem} {tmp b : Addr} {x : PermMacro} {p l ps} (h : MacrosAt m p l ps) :
    ∀ {fuel : Nat} {cur pr : Addr} {c : MacroObj} {R : List Addr}, p = some cur →
      m.obj pr = some (.permMacro c) → c.next = some cur → m.obj tmp = some .raw →
      m.obj b = some (.bytes x.name) → Owns m (b :: tmp :: pr :: ps ++ R) → l.length ≤ fuel →
      ∃ m' r qs, Mem.placeMacro tmp (some b) x.maskRaw fuel m (some pr) cur = .ok (none, m') ∧
        m'.obj pr = some (.permMacro { c with next := some r }) ∧
        MacrosAt m' (some r) (insertMacro x l) qs ∧ Owns m' (pr :: qs ++ R) ∧ EqOn m m' R := by
  induction h with
  | nil => intro _ _ _ _ _ h; cases h
  | @cons p a n y l ps h₁ h₂ h₃ hn ih =>
    intro fuel cur pr c R hc hpr hnx ht hb ho hf
    cases hc
    cases fuel with
    | zero => simp at hf
    | succ fuel =>
      have hnd := ho.nodup
      simp only [List.cons_append, List.nodup_cons, List.mem_cons, not_or, List.mem_append] at hnd
      simp only [Mem.placeMacro, insertMacro]
      rw [get_eq h₁ (f := Obj.permMacro?) rfl, Res.bind_ok]
      simp only
      by_cases hlt : popcount x.maskRaw < popcount y.maskRaw
      · simp only [hlt, if_true]
        rw [write_wrote (by simp [ht]), Res.bind_ok]
        rw [get_eq (f := Obj.permMacro?) ((wrote_other _ _ (by grind)).trans hpr) rfl, Res.bind_ok,
          write_wrote (by rw [wrote_other _ _ (by grind)]; simp [hpr]), Res.bind_ok]
        refine ⟨_, tmp, b :: tmp :: a :: p :: ps, rfl, wrote_self _ _ _, ?_, ?_, ?_⟩
        · refine .cons (n := some p) ?_ ?_ ?_ (by grind)
          · rw [wrote_other _ _ (by grind), wrote_self]; rfl
          · rw [wrote_other _ _ (by grind), wrote_other _ _ (by grind), hb]
          · refine (ChainAt.cons h₁ h₂ h₃ hn).congr ?_
            exact (eqOn_wrote (by grind) _).trans (eqOn_wrote (by grind) _)
        · exact ((ho.wrote (by simp) _).wrote (by simp) _).perm (by pieces)
        · exact (eqOn_wrote (by grind) _).trans (eqOn_wrote (by grind) _)
      · simp only [hlt, if_false]
        cases n with
        | none =>
          cases h₃
          simp only
          rw [write_wrote (by simp [ht]), Res.bind_ok,
            write_wrote (by rw [wrote_other _ _ (by grind)]; simp [h₁]), Res.bind_ok]
          refine ⟨_, p, [a, p, b, tmp], rfl, ?_, ?_, ?_, ?_⟩
          · rw [wrote_other _ _ (by grind), wrote_other _ _ (by grind), hpr, ← hnx]
          · refine .cons (n := some tmp) ?_ ?_ (.cons (n := none) ?_ ?_ .nil (by grind)) (by grind)
            · rw [wrote_self]; rfl
            · rw [wrote_other _ _ (by grind), wrote_other _ _ (by grind), h₂]
            · rw [wrote_other _ _ (by grind), wrote_self]; rfl
            · rw [wrote_other _ _ (by grind), wrote_other _ _ (by grind), hb]
          · exact ((ho.wrote (by simp) _).wrote (by simp) _).perm (by pieces)
          · exact (eqOn_wrote (by grind) _).trans (eqOn_wrote (by grind) _)
        | some n =>
          simp only
          obtain ⟨m', r, qs, e, f₁, f₂, f₃, f₄⟩ := ih (fuel := fuel) (cur := n) (pr := p)
            (R := a :: pr :: R) rfl h₁ rfl ht hb (ho.perm (by pieces)) (by simpa using hf)
          refine ⟨m', p, a :: p :: qs, e, ?_, ?_, f₃.perm (by pieces), f₄.mono (by simp +contextual)⟩
          · rw [f₄ pr (by simp), hpr, ← hnx]
          · refine .cons f₁ ((f₄ a (by simp)).trans h₂) f₂ ?_
            have := f₃.nodup
            simp only [List.cons_append, List.nodup_cons, List.mem_cons, not_or, List.mem_append]
              at this ⊢
            have := List.nodup_append.1 this.2
            grind

theorem insert_macro_cell {m : Mem} {hd : Option Addr} {l ps R} (x : PermMacro)
    (h : MacrosAt m hd l ps) (ho : Owns m (ps ++ R)) :
    ∃ m' hd' qs, m.insertMacro hd x.name x.maskRaw = .ok (hd', m') ∧
      MacrosAt m' hd' (insertMacro x l) qs ∧ Owns m' (qs ++ R) ∧ EqOn m m' R := by
  have ho₁ := (ho.malloc .raw).malloc (.bytes x.name)
  have he₁ : EqOn m ((m.malloc .raw).2.malloc (.bytes x.name)).2 (ps ++ R) :=
    (eqOn_malloc ho _).trans ((eqOn_malloc (ho.malloc _) _).mono (by simp +contextual))
  have g₁ : ((m.malloc .raw).2.malloc (.bytes x.name)).2.obj m.top = some .raw := by
    rw [malloc_obj, if_neg (by simp), malloc_self]
  have g₂ : ((m.malloc .raw).2.malloc (.bytes x.name)).2.obj (m.top + 1) =
      some (.bytes x.name) := malloc_self _ _
  have hpl : ∀ q ∈ ps ++ R, q < m.top := ho.below
  simp only [malloc_top] at ho₁
  simp only [Mem.insertMacro, malloc_fst, malloc_top]
  generalize ((m.malloc .raw).2.malloc (.bytes x.name)).2 = m₁ at ho₁ he₁ g₁ g₂ ⊢
  have hR : m.top ∉ R := fun hq => by have := hpl _ (by simp [hq] : m.top ∈ ps ++ R); omega
  have hR' : m.top + 1 ∉ R := fun hq => by have := hpl _ (by simp [hq] : m.top + 1 ∈ ps ++ R); omega
  cases h with
  | nil =>
    simp only
    rw [write_wrote (by simp [g₁]), Res.bind_ok]
    refine ⟨_, _, [m.top + 1, m.top], rfl, .cons (n := none) ?_ ?_ .nil (by simp), ?_, ?_⟩
    · rw [wrote_self]; rfl
    · rw [wrote_other _ _ (by omega), g₂]
    · exact (ho₁.wrote (by simp) _).perm (by pieces)
    · exact (he₁.mono (by simp)).trans (eqOn_wrote hR _)
  | @cons p a n y l ps h₁ h₂ h₃ hn =>
    have hnd := ho₁.nodup
    simp only [List.cons_append, List.nil_append, List.nodup_cons, List.mem_cons, not_or,
      List.mem_append] at hnd
    have k₁ := (he₁ p (by simp)).trans h₁
    have k₂ := (he₁ a (by simp)).trans h₂
    have k₃ := h₃.congr (he₁.mono (by simp +contextual))
    have hl := (ChainAt.cons h₁ h₂ h₃ hn).fuel ho
    simp only
    rw [Mem.placeMacro, get_eq k₁ (f := Obj.permMacro?) rfl, Res.bind_ok]
    simp only [insertMacro]
    by_cases hlt : popcount x.maskRaw < popcount y.maskRaw
    · simp only [hlt, if_true]
      rw [write_wrote (by simp [g₁]), Res.bind_ok]
      simp only [Res.bind_ok]
      refine ⟨_, _, (m.top + 1) :: m.top :: a :: p :: ps, rfl, .cons (n := some p) ?_ ?_ ?_ ?_, ?_, ?_⟩
      · rw [wrote_self]; rfl
      · rw [wrote_other _ _ (by omega), g₂]
      · exact (ChainAt.cons k₁ k₂ k₃ hn).congr (eqOn_wrote (by grind) _)
      · grind
      · exact (ho₁.wrote (by simp) _).perm (by pieces)
      · exact (he₁.mono (by simp +contextual)).trans (eqOn_wrote hR _)
    · simp only [hlt, if_false]
      cases n with
      | none =>
        cases k₃
        simp only
        rw [write_wrote (by simp [g₁]), Res.bind_ok,
          write_wrote (by rw [wrote_other _ _ (by grind)]; simp [k₁]), Res.bind_ok, Res.bind_ok]
        refine ⟨_, _, [a, p, m.top + 1, m.top], rfl,
          .cons (n := some m.top) ?_ ?_ (.cons (n := none) ?_ ?_ .nil (by grind)) (by grind), ?_, ?_⟩
        · rw [wrote_self]; rfl
        · rw [wrote_other _ _ (by grind), wrote_other _ _ (by grind), k₂]
        · rw [wrote_other _ _ (by grind), wrote_self]; rfl
        · rw [wrote_other _ _ (by grind), wrote_other _ _ (by grind), g₂]
        · exact ((ho₁.wrote (by simp) _).wrote (by simp) _).perm (by pieces)
        · exact ((he₁.mono (by simp +contextual)).trans (eqOn_wrote hR _)).trans
            (eqOn_wrote (by grind) _)
      | some n =>
        simp only
        obtain ⟨m', r, qs, e, f₁, f₂, f₃, f₄⟩ := place_macro k₃ (fuel := m.top + 1) (cur := n) (pr := p)
          (R := a :: R) rfl k₁ rfl g₁ g₂ (ho₁.perm (by pieces)) (by simp at hl; omega)
        rw [e, Res.bind_ok]
        refine ⟨m', _, a :: p :: qs, rfl, .cons f₁ ((f₄ a (by simp)).trans k₂) f₂ ?_,
          f₃.perm (by pieces), (he₁.mono (by simp +contextual)).trans (f₄.mono (by simp +contextual))⟩
        have := f₃.nodup
        simp only [List.cons_append, List.nodup_cons, List.mem_cons, not_or, List.mem_append]
          at this ⊢
        have := List.nodup_append.1 this.2
        grind

/-! ## Sections -/

theorem find_section {m : Mem} {name : Str} {lineno : Nat} (hline : lineno < 2 ^ 32) {p l ps}
    (h : SectionChain m p l ps) :
    ∀ {fuel : Nat} {cur : Addr} {R : List Addr}, p = some cur → l.length ≤ fuel →
      Owns m (ps ++ R) →
      ∃ m' qs, (Mem.findSection name fuel m cur).bind
          (fun r => r.2.countLine r.1 name lineno) = .ok m' ∧
        SectionChain m' (some cur) (addSectionInfo name lineno l) qs ∧ Owns m' (qs ++ R) ∧
        EqOn m m' R := by
  induction h with
  | nil => intro _ _ _ h; cases h
  | @cons p a n x l ps h₁ h₂ h₃ hn ih =>
    intro fuel cur R hc hf ho
    cases hc
    cases fuel with
    | zero => simp at hf
    | succ fuel =>
      have hnd := ho.nodup
      simp only [List.cons_append, List.nodup_cons, List.mem_cons, not_or, List.mem_append] at hnd
      simp only [Mem.findSection, addSectionInfo]
      rw [get_eq h₁ (f := Obj.sect?) rfl, Res.bind_ok]
      simp only [Mem.getAt]
      rw [get_eq h₂ (f := Obj.str?) rfl, Res.bind_ok]
      by_cases hs : strcmp x.name name = 0
      · simp only [hs, ne_eq, not_true_eq_false, if_false, if_true]
        simp only [Res.bind, Mem.countLine]
        rw [get_eq h₁ (f := Obj.sect?) rfl, Res.bind_ok]
        simp only
        rw [write_wrote (by simp [h₁])]
        refine ⟨_, a :: p :: ps, rfl, .cons (wrote_self _ _ _) ?_ ?_ hn, ho.wrote (by simp) _, ?_⟩
        · rw [wrote_other _ _ (by grind), h₂]
        · exact h₃.congr (eqOn_wrote (by grind) _)
        · exact eqOn_wrote (by grind) _
      · simp only [hs, ne_eq, not_false_eq_true, if_true, if_false]
        cases n with
        | none =>
          cases h₃
          have hp : p < m.top := ho.below p (by simp)
          have ha : a < m.top := ho.below a (by simp)
          simp only [malloc_fst]
          rw [write_wrote (by rw [malloc_obj, if_neg (by omega)]; simp [h₁]), Res.bind_ok]
          simp only [Res.bind, Mem.countLine]
          have k : (wrote (m.malloc (.sect ⟨none, 0, 0, none⟩)).2 p
              (.sect ⟨some a, x.count, x.sum, some m.top⟩)).obj m.top =
              some (.sect ⟨none, 0, 0, none⟩) := by
            rw [wrote_other _ _ (by omega), malloc_self]
          have k' : (wrote (m.malloc (.sect ⟨none, 0, 0, none⟩)).2 p
              (.sect ⟨some a, x.count, x.sum, some m.top⟩)).obj p =
              some (.sect ⟨some a, x.count, x.sum, some m.top⟩) := wrote_self _ _ _
          have ho₁ := (ho.malloc (.sect ⟨none, 0, 0, none⟩)).wrote (p := p) (by simp)
            (.sect ⟨some a, x.count, x.sum, some m.top⟩)
          have he₁ : EqOn m (wrote (m.malloc (.sect ⟨none, 0, 0, none⟩)).2 p
              (.sect ⟨some a, x.count, x.sum, some m.top⟩)) (a :: R) :=
            ((eqOn_malloc ho _).mono (by simp +contextual)).trans (eqOn_wrote (by grind) _)
          have htop : (wrote (m.malloc (.sect ⟨none, 0, 0, none⟩)).2 p
              (.sect ⟨some a, x.count, x.sum, some m.top⟩)).top = m.top + 1 := rfl
          generalize wrote (m.malloc (.sect ⟨none, 0, 0, none⟩)).2 p
              (.sect ⟨some a, x.count, x.sum, some m.top⟩) = m₁ at k k' ho₁ he₁ htop ⊢
          rw [get_eq k (f := Obj.sect?) rfl, Res.bind_ok]
          simp only [malloc_fst]
          rw [write_wrote (by rw [malloc_obj, if_neg (by omega)]; simp [k])]
          have he₂ : EqOn m₁ (wrote (m₁.malloc (.bytes name)).2 m.top
              (.sect ⟨some m₁.top, 0 + 1, (0 + lineno) % 2 ^ 32, none⟩)) (p :: a :: R) := by
            intro z hz
            have := ho.below z (by simp at hz ⊢; grind)
            rw [wrote_other _ _ (by omega), malloc_obj, if_neg (by omega)]
          refine ⟨_, [a, p, m₁.top, m.top], rfl, .cons (n := some m.top) ?_ ?_
            (.cons (n := none) ?_ ?_ .nil (by grind)) (by grind), ?_, ?_⟩
          · rw [he₂ p (by simp), k']; rfl
          · rw [he₂ a (by simp), he₁ a (by simp), h₂]
          · rw [wrote_self, Nat.mod_eq_of_lt (by omega)]; simp [sectCell]
          · rw [wrote_other _ _ (by omega), malloc_obj, if_pos rfl]
          · exact ((ho₁.malloc _).wrote (by simp) _).perm (by pieces)
          · exact (he₁.mono (by simp +contextual)).trans (he₂.mono (by simp +contextual))
        | some n =>
          simp only
          obtain ⟨m', qs, e, f₁, f₂, f₃⟩ := ih (fuel := fuel) (cur := n) (R := a :: p :: R) rfl
            (by simpa using hf) (ho.perm (by pieces))
          refine ⟨m', a :: p :: qs, e, ?_, f₂.perm (by pieces), f₃.mono (by simp +contextual)⟩
          cases hl : addSectionInfo name lineno l with
          | nil => rw [hl] at f₁; cases f₁
          | cons y l' =>
            rw [hl] at f₁
            refine .cons ((f₃ p (by simp)).trans h₁) ((f₃ a (by simp)).trans h₂) f₁ ?_
            have := f₂.nodup
            have := List.nodup_append.1 this
            grind

theorem add_section {m : Mem} {p : Addr} {l : List SectionData} {ps R : List Addr} (name : Str)
    {lineno : Nat} (hline : lineno < 2 ^ 32) (h : SectionsAt m p l ps) (ho : Owns m (ps ++ R)) :
    ∃ m' qs, m.addSectionInfo p name lineno = .ok m' ∧
      SectionsAt m' p (addSectionInfo name lineno l) qs ∧ Owns m' (qs ++ R) ∧ EqOn m m' R := by
  rcases h with ⟨rfl, h, rfl⟩ | ⟨hne, h⟩
  · have hp : p < m.top := ho.below p (by simp)
    simp only [Mem.addSectionInfo]
    rw [get_eq h (f := Obj.sect?) rfl, Res.bind_ok]
    simp only [Res.bind_ok, Mem.countLine]
    rw [get_eq h (f := Obj.sect?) rfl, Res.bind_ok]
    simp only [malloc_fst]
    rw [write_wrote (by rw [malloc_obj, if_neg (by omega)]; simp [h])]
    refine ⟨_, [m.top, p], rfl, .inr ⟨by simp [addSectionInfo], .cons (n := none) ?_ ?_ .nil ?_⟩,
      ?_, ?_⟩
    · rw [wrote_self, Nat.mod_eq_of_lt (by omega)]; simp [sectCell]
    · rw [wrote_other _ _ (by omega), malloc_self]
    · simp; omega
    · exact ((ho.malloc _).wrote (by simp) _).perm (by pieces)
    · intro z hz
      have := ho.below z (by simp [hz])
      have : z ≠ p := by rintro rfl; exact ho.disjoint z hz (by simp)
      rw [wrote_other _ _ this, malloc_obj, if_neg (by omega)]
  · have hf := h.fuel ho
    obtain ⟨m', qs, e, f₁, f₂, f₃⟩ := find_section (name := name) hline h rfl hf ho
    refine ⟨m', qs, ?_, .inr ⟨?_, f₁⟩, f₂, f₃⟩
    · cases h with
      | cons h₁ h₂ h₃ hn =>
        simp only [Mem.addSectionInfo]
        rw [get_eq h₁ (f := Obj.sect?) rfl, Res.bind_ok]
        exact e
    · cases l with
      | nil => exact absurd rfl hne
      | cons x l => simp only [addSectionInfo]; split <;> simp

/-! ## Families of lists -/

section
variable {ι α : Type} {all : List ι} {cell : α → Addr → Option Addr → Obj}
  {name : α → Str}

theorem Spec.FamilyAt.congr {m m' : Mem} {hs : ι → Option Addr} {ls : ι → List α} {ps : List Addr}
    (hall : ∀ i, i ∈ all) (h : FamilyAt all cell name m hs ls ps) (he : EqOn m m' ps) :
    FamilyAt all cell name m' hs ls ps := by
  obtain ⟨P, h, rfl⟩ := h
  exact ⟨P, fun i => (h i).congr (he.mono fun q hq => List.mem_flatMap.2 ⟨i, hall i, hq⟩), rfl⟩

theorem Spec.FamilyAt.live {m : Mem} {hs : ι → Option Addr} {ls : ι → List α} {ps : List Addr}
    (h : FamilyAt all cell name m hs ls ps) : Live m ps := by
  obtain ⟨P, h, rfl⟩ := h
  intro q hq
  obtain ⟨i, _, hq⟩ := List.mem_flatMap.1 hq
  exact (h i).live q hq

theorem flatMap_erase [DecidableEq ι] {i : ι} (hi : i ∈ all) (P : ι → List Addr) :
    (all.flatMap P).Perm (P i ++ (all.erase i).flatMap P) := by
  have := (List.perm_cons_erase hi).flatMap_right P
  simpa using this

/-- One list of the family is taken out and put back changed. -/
theorem Spec.FamilyAt.change [DecidableEq ι] (hn : all.Nodup) (hall : ∀ i, i ∈ all) {m : Mem}
    {hs : ι → Option Addr} {ls : ι → List α} {ps R : List Addr} (i : ι)
    (h : FamilyAt all cell name m hs ls ps) (ho : Owns m (ps ++ R)) :
    ∃ qs rest, ChainAt cell name m (hs i) (ls i) qs ∧ Owns m (qs ++ (rest ++ R)) ∧
      ∀ m' hd l qs', ChainAt cell name m' hd l qs' → Owns m' (qs' ++ (rest ++ R)) →
        EqOn m m' (rest ++ R) →
        ∃ ps', FamilyAt all cell name m' (fun j => if j = i then hd else hs j)
          (fun j => if j = i then l else ls j) ps' ∧ Owns m' (ps' ++ R) ∧ EqOn m m' R ∧
          (qs' = qs → ps' = ps) := by
  obtain ⟨P, h, rfl⟩ := h
  have hp := flatMap_erase (hall i) P
  refine ⟨P i, (all.erase i).flatMap P, h i, ?_, ?_⟩
  · rw [← List.append_assoc]; exact ho.perm (hp.append_right R)
  · intro m' hd l qs' hc ho' he
    refine ⟨all.flatMap (fun j => if j = i then qs' else P j),
      ⟨fun j => if j = i then qs' else P j, fun j => ?_, rfl⟩, ?_, he.right, ?_⟩
    · by_cases hj : j = i
      · simp [hj, hc]
      · simp only [hj, if_false]
        refine (h j).congr (he.left.mono fun q hq => List.mem_flatMap.2 ⟨j, ?_, hq⟩)
        exact (List.mem_erase_of_ne hj).2 (hall j)
    · have hp' := flatMap_erase (hall i) (fun j => if j = i then qs' else P j)
      have : (all.erase i).flatMap (fun j => if j = i then qs' else P j) =
          (all.erase i).flatMap P := by
        rw [List.flatMap_def, List.flatMap_def]
        congr 1
        refine List.map_congr_left fun j hj => ?_
        have : j ≠ i := by rintro rfl; exact hn.not_mem_erase hj
        simp [this]
      rw [this] at hp'
      simp only [if_true] at hp'
      rw [← List.append_assoc] at ho'
      exact ho'.perm (hp'.symm.append_right R)
    · rintro rfl
      rw [List.flatMap_def, List.flatMap_def]
      congr 1
      refine List.map_congr_left fun j _ => ?_
      by_cases hj : j = i <;> simp [hj]

end

theorem NodeFlavor.mem_all' (fl : NodeFlavor) : fl ∈ NodeFlavor.all := by cases fl <;> decide

theorem NodeFlavor.nodup_all : NodeFlavor.all.Nodup := by decide

theorem mem_categories (c : Category) : c ∈ categories := by cases c <;> decide

theorem nodup_categories : categories.Nodup := by decide

theorem freeCheckLists_eq {ck : CheckHeads} {P : NodeFlavor → List Addr}
    {L : NodeFlavor → List (CheckNode Nat)} {m : Mem}
    (h : ∀ fl, ChecksAt m (ck fl) (L fl) (P fl)) : ∀ (fls : List NodeFlavor) {m' : Mem},
      EqOn m m' (fls.flatMap P) → (fls.flatMap P).Nodup → (fls.flatMap P).length ≤ m'.top →
      Mem.freeCheckLists ck fls m' = .ok (dropped m' (fls.flatMap P)) := by
  intro fls
  induction fls with
  | nil => intro m' _ _ _; simp [Mem.freeCheckLists, dropped]
  | cons fl fls ih =>
    intro m' he hn hl
    rw [List.flatMap_cons] at he hn hl ⊢
    have hd := List.nodup_append.1 hn
    have := (h fl).length
    simp only [List.length_append] at hl
    rw [Mem.freeCheckLists, freeCheckNode_eq (h fl) he.left (by omega), Res.bind_ok,
      ih (he.right.trans (eqOn_dropped m' fun q hq hq' => hd.2.2 q hq' q hq rfl)) hd.2.1
        (by simp only [dropped_top]; omega), dropped_dropped]

/-- One more list of macros is freed. -/
theorem free_macros_step {m : Mem} {p l qs ds} (h : MacrosAt m p l qs) (hn : (ds ++ qs).Nodup)
    (hl : (ds ++ qs).length ≤ m.top) :
    Mem.freePermMacro (dropped m ds).top (dropped m ds) p = .ok (dropped m (ds ++ qs)) := by
  have hd := List.nodup_append.1 hn
  have := h.length
  simp only [List.length_append] at hl
  rw [freePermMacro_eq h (eqOn_dropped m fun q hq hq' => hd.2.2 q hq' q hq rfl)
    (by simp only [dropped_top]; omega), dropped_dropped]

theorem freePermmacros_eq {m : Mem} {hs : Category → Option Addr}
    {ls : Category → List PermMacro} {ps : List Addr}
    (h : FamilyAt categories macroCell (·.name) m hs ls ps) (hn : ps.Nodup)
    (hl : ps.length ≤ m.top) : m.freePermmacros hs = .ok (dropped m ps, fun _ => none) := by
  obtain ⟨P, h, rfl⟩ := h
  have hR : categories.flatMap P = [] ++ P .dir ++ P .file ++ P .lnkFile ++ P .chrFile ++
      P .blkFile ++ P .sockFile ++ P .fifoFile := by simp [categories]
  rw [hR] at hn hl ⊢
  have pre : ∀ {a b : List Addr}, (a ++ b).Nodup ∧ (a ++ b).length ≤ m.top →
      a.Nodup ∧ a.length ≤ m.top := fun {a b} h =>
    ⟨(List.nodup_append.1 h.1).1, by have := h.2; simp only [List.length_append] at this; omega⟩
  have n7 := And.intro hn hl
  have n6 := pre n7
  have n5 := pre n6
  have n4 := pre n5
  have n3 := pre n4
  have n2 := pre n3
  have n1 := pre n2
  have h0 : m = dropped m [] := by simp [dropped]
  rw [Mem.freePermmacros]
  conv => lhs; rw [h0]
  rw [free_macros_step (h .dir) n1.1 n1.2, Res.bind_ok,
    free_macros_step (h .file) n2.1 n2.2, Res.bind_ok,
    free_macros_step (h .lnkFile) n3.1 n3.2, Res.bind_ok,
    free_macros_step (h .chrFile) n4.1 n4.2, Res.bind_ok,
    free_macros_step (h .blkFile) n5.1 n5.2, Res.bind_ok,
    free_macros_step (h .sockFile) n6.1 n6.2, Res.bind_ok,
    free_macros_step (h .fifoFile) n7.1 n7.2, Res.bind_ok]

theorem owns_split {m : Mem} {ps : List Addr} (hb : Bounded m) (hn : ps.Nodup) (hl : Live m ps) :
    Owns m (ps ++ (List.range m.top).filter (fun q => q ∉ ps)) := by
  refine ⟨?_, ?_, ?_⟩
  · rw [List.nodup_append]
    refine ⟨hn, List.nodup_range.filter _, fun a ha b hb' => ?_⟩
    rintro rfl
    simp at hb'
    exact hb'.2 ha
  · intro q hq
    rcases List.mem_append.1 hq with hq | hq
    · exact Nat.lt_of_not_le fun h => hl q hq (hb q h)
    · simp at hq; exact hq.1
  · intro q hq
    refine hb q ?_
    simp at hq
    exact Nat.le_of_not_lt fun h => hq.1 (hq.2 h)

theorem sameOff_of {m m' : Mem} {ps : List Addr} (hb : Bounded m)
    (ho : Owns m' (ps ++ (List.range m.top).filter (fun q => q ∉ ps)))
    (he : EqOn m m' ((List.range m.top).filter (fun q => q ∉ ps))) : SameOff m m' ps := by
  intro q hq
  by_cases hlt : q < m.top
  · exact he q (by simp [hlt, hq])
  · rw [hb q (Nat.le_of_not_lt hlt)]
    exact ho.only q (by simp [hq, hlt])

end Selint
