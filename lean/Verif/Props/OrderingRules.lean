import Verif.Spec.OrderingRules
import Verif.Props.OrderingPair
/-!
# C54: the order C-001 enforces is the documented one
-/

namespace Selint

open Spec

theorem compareNodes_of_sections {m : Maps} (secs : List SectionData) (mod : Str) (v : OrderConf)
    {a b : Loc} {s1 s2 : Str} (h1 : getSection m a = .ok (some s1))
    (h2 : getSection m b = .ok (some s2)) (hn1 : s1 ≠ secNonOrdered) (hn2 : s2 ≠ secNonOrdered) :
    compareNodes m secs mod v a b =
      (if !isSameSection s1 s2 then compareSections secs s1 s2
       else if s1 = secDeclaration then .ok (compareDeclarations a b)
       else compareLocal m mod v (compareNodes m secs mod v) a b) := by
  rw [compareNodes_eq]
  unfold compareStep
  simp only [h1, h2, Res.bind_ok, strcmp_eq_zero, hn1, hn2, or_self, if_false, Res.pure_eq]

/-- **C54.** Declarations stand before the lines of every other section: in any file, with
any statistics, a declaration may be followed by such a line and not the other way round. -/
theorem C54_declarations_first (m : Maps) (secs : List SectionData) (mod : Str) (v : OrderConf)
    (a b : Loc) (s : Str) (ha : getSection m a = .ok (some secDeclaration))
    (hb : getSection m b = .ok (some s)) (hs : s ≠ secNonOrdered)
    (hd : isSameSection secDeclaration s = false) :
    compareNodes m secs mod v a b = .ok 1 ∧ compareNodes m secs mod v b a = .ok (-1) := by
  have hd' : isSameSection s secDeclaration = false := by rw [isSameSection_symm]; exact hd
  have hne : s ≠ secDeclaration := by
    rintro rfl
    simp [isSameSection, strncmpEq] at hd
  constructor
  · rw [compareNodes_of_sections secs mod v ha hb (by decide) hs]
    simp [hd, compareSections, strcmp_eq_zero, orderSection]
  · rw [compareNodes_of_sections secs mod v hb ha hs (by decide)]
    have hc : char0 secDeclaration = '_' := by decide
    simp [hd', compareSections, strcmp_eq_zero, hne, orderSection, hc]

theorem checkOrdering_place (v : OrderConf) (l1 l2 : Lss) (h : place v l1 < place v l2) :
    checkOrdering l1 l2 orderLocalSubsection (lssOrder v) = some 3 ∧
    checkOrdering l2 l1 orderLocalSubsection (lssOrder v) = some (-3) := by
  cases v <;> cases l1 <;> cases l2 <;> revert h <;> decide

/-- **C54.** Lines of the same section (other than the declarations) whose subsections have
different places: the one with the lower place comes first, in every variant. -/
theorem C54_subsections (m : Maps) (secs : List SectionData) (mod : Str) (v : OrderConf)
    (a b : Loc) (s1 s2 : Str) (ha : getSection m a = .ok (some s1))
    (hb : getSection m b = .ok (some s2)) (hs1 : s1 ≠ secNonOrdered) (hs2 : s2 ≠ secNonOrdered)
    (hsame : isSameSection s1 s2 = true) (hd1 : s1 ≠ secDeclaration) (hd2 : s2 ≠ secDeclaration)
    (hu1 : getLocalSubsection m mod v a ≠ .unknown) (hu2 : getLocalSubsection m mod v b ≠ .unknown)
    (hp : place v (getLocalSubsection m mod v a) < place v (getLocalSubsection m mod v b)) :
    (∃ x, compareNodes m secs mod v a b = .ok x ∧ 0 < x) ∧
    (∃ y, compareNodes m secs mod v b a = .ok y ∧ y < 0) := by
  have hsame' : isSameSection s2 s1 = true := by rw [isSameSection_symm]; exact hsame
  rw [compareNodes_of_sections secs mod v ha hb hs1 hs2,
    compareNodes_of_sections secs mod v hb ha hs2 hs1]
  simp only [hsame, hsame', hd1, hd2, Bool.not_true, Bool.false_eq_true, if_false]
  unfold compareLocal
  generalize getLocalSubsection m mod v a = l1 at *
  generalize getLocalSubsection m mod v b = l2 at *
  have hne : l1 ≠ l2 := by rintro rfl; omega
  obtain ⟨e1, e2⟩ := checkOrdering_place v l1 l2 hp
  simp only [hu1, hu2, or_self, if_false, hne, Ne.symm hne, ne_eq, not_false_eq_true, if_true, e1, e2]
  exact ⟨⟨3, rfl, by decide⟩, ⟨-3, rfl, by decide⟩⟩

/-! ## Subsections of lines outside of conditional blocks -/

theorem strchr_len (s : Str) : modPrefixLen s = (s.takeWhile (· ≠ '_')).length := by
  unfold modPrefixLen
  have : ∀ t : Str, (∀ r, strchr '_' t = some r → t.length = (t.takeWhile (· ≠ '_')).length + r.length)
      ∧ (strchr '_' t = none → t.length = (t.takeWhile (· ≠ '_')).length) := by
    intro t
    induction t with
    | nil => simp [strchr]
    | cons c cs ih =>
      by_cases hc : c = '_'
      · subst hc
        refine ⟨?_, ?_⟩
        · intro r hr
          simp only [strchr, if_true, Option.some.injEq] at hr
          subst hr; simp
        · simp [strchr]
      · simp only [strchr, if_neg hc, ne_eq, hc, not_false_eq_true, decide_true,
          List.takeWhile_cons_of_pos, List.length_cons]
        refine ⟨?_, ?_⟩
        · intro r hr
          have := ih.1 r hr
          simp only [ne_eq] at this; omega
        · intro hr
          have := ih.2 hr
          simp only [ne_eq] at this; omega
  cases h : strchr '_' s with
  | none => exact (this s).2 h
  | some r => have := (this s).1 r h; simp only at *; omega

theorem strchr_prefix (s : Str) : modPrefixLen s = (s.takeWhile (· ≠ '_')).length ∧
    s.take (modPrefixLen s) = s.takeWhile (· ≠ '_') := by
  refine ⟨strchr_len s, ?_⟩
  rw [strchr_len s]
  exact (List.prefix_iff_eq_take.1 (List.takeWhile_prefix _)).symm

theorem related_iff (a b : Str) :
    (modPrefixLen a == modPrefixLen b && strncmpEq a b (modPrefixLen a)) = true ↔
      b.takeWhile (· ≠ '_') = a.takeWhile (· ≠ '_') := by
  obtain ⟨h1, h2⟩ := strchr_prefix a
  obtain ⟨h3, h4⟩ := strchr_prefix b
  simp only [strncmpEq, Bool.and_eq_true, beq_iff_eq]
  constructor
  · rintro ⟨e1, e2⟩
    rw [h2, e1, h4] at e2
    exact e2.symm
  · intro e
    have : modPrefixLen a = modPrefixLen b := by rw [h1, h3, e]
    refine ⟨this, ?_⟩
    rw [h2, this, h4, e]

theorem outside {l : Loc} (ho : outermost l = none) :
    isInIfdef l = false ∧ isOptional l = false ∧ isBoolean l = false ∧ isTunable l = false := by
  obtain ⟨h1, h2, h3, h4⟩ := C32_outermost_decides l
  rw [ho] at h1 h2 h3 h4
  simp only [reduceCtorEq, iff_false, Bool.not_eq_true] at h1 h2 h3 h4
  exact ⟨h4, h1, h2, h3⟩

/-- **C54.** A call of a known interface outside of all conditional blocks is placed by the
interface's module and layer. -/
theorem C54_interface_calls (m : Maps) (mod : Str) (v : OrderConf) (l : Loc) (d : IfCallData)
    (callee : Str) (hd : l.data = .ifCall d) (hif : m.lookUpIf d.name = some callee)
    (ho : outermost l = none) :
    getLocalSubsection m mod v l = callPlace v mod callee (m.lookUpModLayer callee) := by
  obtain ⟨o1, o2, o3, o4⟩ := outside ho
  have hc : calledModule m l = some callee := by simp [calledModule, hd, hif]
  have hfl : l.flavor = .ifCall := by
    have : l.flavor = l.data.flavor := rfl
    rw [this, hd]; rfl
  have hrel : isRelatedModIfCall m mod l = decide (callee.takeWhile (· ≠ '_') = mod.takeWhile (· ≠ '_')) := by
    rw [Bool.eq_iff_iff, decide_eq_true_eq, ← related_iff mod callee]
    simp [isRelatedModIfCall, hc]
  have hself : isSelfRule l = false := by simp [isSelfRule, hd]
  have hown : isOwnModuleRule m mod l = false := by simp [isOwnModuleRule, hd, hif]
  have howncall : isOwnModIfCall m mod l = decide (callee = mod) := by
    simp only [isOwnModIfCall, hc, ne_eq, strcmp_eq_zero]
    by_cases h : mod = callee
    · simp [h]
    · simp [h, Ne.symm h]
  have hkm : isKernelModIfCall m l = decide (callee = cs!"kernel") := by
    simp only [isKernelModIfCall, hc, strcmp_eq_zero]
    exact decide_eq_decide.2 eq_comm
  have hlay : ∀ x, checkCallLayer m x l = decide (m.lookUpModLayer callee = some x) := by
    intro x
    simp only [checkCallLayer, hc]
    cases m.lookUpModLayer callee with
    | none => simp
    | some y => simp
  unfold getLocalSubsection callPlace
  simp only [o1, o2, o3, o4, hself, hown, howncall, hrel, hkm, hlay, hfl, Bool.false_eq_true,
    if_false, decide_eq_true_eq, if_true]

/-- Names that look foreign to no one are own names. -/
theorem ownNames_iff (m : Maps) (mod : Str) (ns : List Str) :
    ownNames m mod ns = true ↔ ∀ n ∈ ns, ∀ owner,
      (m.lookUpDecl n .type).or (m.lookUpDecl n .attribute) = some owner → owner = mod := by
  induction ns with
  | nil => simp [ownNames]
  | cons n ns ih =>
    simp only [ownNames, List.mem_cons, forall_eq_or_imp]
    cases h1 : m.lookUpDecl n .type with
    | some o =>
      simp only [ne_eq, strcmp_eq_zero, Option.some_or, Option.some.injEq, forall_eq']
      by_cases h : o = mod <;> simp [h, ih]
    | none =>
      cases h2 : m.lookUpDecl n .attribute with
      | none => simp [ih]
      | some o =>
        simp only [ne_eq, strcmp_eq_zero, Option.none_or, Option.some.injEq, forall_eq']
        by_cases h : o = mod <;> simp [h, ih]

/-- **C54.** A rule outside of all conditional blocks on `self` is a self rule; any other
rule is an own rule iff no type or attribute it names is declared by another module. -/
theorem C54_rules (m : Maps) (mod : Str) (v : OrderConf) (l : Loc) (d : AvData)
    (hd : l.data = .av d ∨ ∃ op, l.data = .xav d op) (ho : outermost l = none) :
    getLocalSubsection m mod v l =
      if d.targets.head? = some cs!"self" then .self
      else if ∀ n ∈ getNamesInNode l.info, ∀ owner,
          (m.lookUpDecl n .type).or (m.lookUpDecl n .attribute) = some owner → owner = mod then .own
      else .unknown := by
  obtain ⟨o1, o2, o3, o4⟩ := outside ho
  have hc : calledModule m l = none := by
    rcases hd with h | ⟨op, h⟩ <;> simp [calledModule, h]
  have hfl : l.flavor ≠ .ifCall := by
    have : l.flavor = l.data.flavor := rfl
    rw [this]
    rcases hd with h | ⟨op, h⟩ <;> simp [h, NodeData.flavor]
  have hself : isSelfRule l = decide (d.targets.head? = some cs!"self") := by
    rcases hd with h | ⟨op, h⟩ <;>
      (simp only [isSelfRule, h]; cases d.targets <;> simp)
  have hown : isOwnModuleRule m mod l = decide (∀ n ∈ getNamesInNode l.info, ∀ owner,
      (m.lookUpDecl n .type).or (m.lookUpDecl n .attribute) = some owner → owner = mod) := by
    rw [Bool.eq_iff_iff, decide_eq_true_eq, ← ownNames_iff]
    rcases hd with h | ⟨op, h⟩ <;> simp [isOwnModuleRule, h]
  unfold getLocalSubsection
  simp only [o1, o2, o3, o4, hself, hown, Bool.false_eq_true, if_false, decide_eq_true_eq,
    isOwnModIfCall, isRelatedModIfCall, isKernelModIfCall, checkCallLayer, hc, hfl, and_false]

/-- Non-vacuity: a call into the kernel layer and an own rule of module `foo_daemon`. -/
example :
    let m : Maps := { ifs := [(cs!"dev_read", cs!"devices"), (cs!"foo_run", cs!"foo")],
                      modLayers := [(cs!"devices", cs!"kernel")],
                      type := [(cs!"foo_t", cs!"foo_daemon")] }
    let dev : Loc := ⟨.mk ⟨.ifCall ⟨cs!"dev_read", [(cs!"foo_t", false)]⟩, none, 3⟩ [], [], [], []⟩
    let foo : Loc := ⟨.mk ⟨.ifCall ⟨cs!"foo_run", [(cs!"foo_t", false)]⟩, none, 4⟩ [], [], [], []⟩
    let own : Loc := ⟨.mk ⟨.av ⟨.allow, [cs!"foo_t"], [cs!"foo_t"], [cs!"file"], [cs!"read"]⟩,
      none, 2⟩ [], [], [], []⟩
    outermost dev = none ∧ getLocalSubsection m cs!"foo_daemon" .ref dev = .kernel ∧
      getLocalSubsection m cs!"foo_daemon" .light dev = .other ∧
      getLocalSubsection m cs!"foo_daemon" .ref foo = .other ∧
      getLocalSubsection m cs!"foo_daemon" .light foo = .related ∧
      getLocalSubsection m cs!"foo_daemon" .ref own = .own ∧
      compareNodes m [] cs!"foo_daemon" .ref own dev = .ok 3 ∧
      compareNodes m [] cs!"foo_daemon" .ref dev own = .ok (-3) := by decide +kernel

end Selint
