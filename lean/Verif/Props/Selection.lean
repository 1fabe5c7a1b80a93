import Verif.Spec.Selection
import Verif.Lemmas.Basic
/-! # C01–C03: which checks run -/

namespace Selint

open Spec

/-- **C01.** Without `--only-enabled` the last step of the documented override order that
names the check decides; a check named nowhere runs. -/
theorem C01_enable_override (id : Str) (c : EnableConf) (h : c.onlyEnabled = false) :
    isCheckEnabled id c = lastMention (overrideSteps c) id true := by
  unfold isCheckEnabled lastMention overrideSteps
  simp only [h, Bool.false_eq_true, if_false, strInSl_iff, List.filter_cons, List.filter_nil,
    decide_eq_true_eq]
  by_cases h1 : id ∈ c.configDisabled <;> by_cases h2 : id ∈ c.configEnabled <;>
    by_cases h3 : id ∈ c.clDisabled <;> by_cases h4 : id ∈ c.clEnabled <;>
    simp [h1, h2, h3, h4]

/-- C01 is about something: all four lists mention the id, or only the first three. -/
example : isCheckEnabled cs!"W-001"
    ⟨[cs!"W-001"], [cs!"W-001"], [], [cs!"E-003", cs!"W-001"], false⟩ = false := by decide
example : isCheckEnabled cs!"W-001"
    ⟨[cs!"W-001"], [cs!"W-001"], [cs!"W-001"], [cs!"W-001"], false⟩ = true := by decide

/-- **C02.** With `--only-enabled` a check runs iff it is listed with `-e`. -/
theorem C02_only_enabled (id : Str) (c : EnableConf) (h : c.onlyEnabled = true) :
    isCheckEnabled id c = true ↔ id ∈ c.clEnabled := by
  unfold isCheckEnabled
  simp [h, strInSl_iff]

example : isCheckEnabled cs!"W-001"
    ⟨[cs!"W-001"], [], [cs!"E-003"], [], true⟩ = false := by decide
example : isCheckEnabled cs!"W-001"
    ⟨[], [cs!"W-001"], [cs!"W-001"], [cs!"W-001"], true⟩ = true := by decide

/-- Helper: what a guarded group of `add_check` calls does to one flavor's list. -/
theorem addIf_apply (cond : Bool) (id : Str) (fn : CheckFn) (fls : List NodeFlavor)
    (hnd : fls.Nodup) (ck : Checks CheckFn) (g : NodeFlavor) :
    addIf cond id fn fls ck g =
      ck g ++ (if cond && decide (g ∈ fls) then [⟨fn, id, 0⟩] else []) := by
  unfold addIf
  cases cond with
  | false => simp
  | true =>
    simp only [if_true, Bool.true_and, decide_eq_true_eq]
    induction fls generalizing ck with
    | nil => simp
    | cons f fs ih =>
      simp only [List.nodup_cons] at hnd
      simp only [List.foldl_cons]
      rw [ih hnd.2]
      unfold addCheck
      by_cases hgf : g = f
      · subst hgf; simp [hnd.1]
      · simp [hgf]

/-- Helper: filtering a table row by row. -/
theorem hooksOn_cons (r : CheckRow) (rs : List CheckRow) (p : CheckRow → Bool) :
    ((r :: rs).filter p).map (fun r => (⟨r.fn, r.id, 0⟩ : CheckNode CheckFn)) =
      (if p r then [⟨r.fn, r.id, 0⟩] else []) ++
        (rs.filter p).map (fun r => ⟨r.fn, r.id, 0⟩) := by
  simp only [List.filter_cons]; split <;> simp

theorem needs_perm (m : Maps) :
    unknownPermissionCondition m = decide (m.perm ≠ [] ∧ m.permmacros ≠ []) := by
  unfold unknownPermissionCondition Maps.declCount Maps.permmacrosCount Maps.declTable
  cases m.perm <;> cases m.permmacros <;> simp

theorem needs_cls (m : Maps) : unknownClassCondition m = decide (m.cls ≠ []) := by
  unfold unknownClassCondition Maps.declCount Maps.declTable
  cases m.cls <;> simp

theorem filter_sublist_filter {α : Type} {p q : α → Bool} (h : ∀ a, p a = true → q a = true)
    (l : List α) : (l.filter p).Sublist (l.filter q) := by
  induction l with
  | nil => simp
  | cons x xs ih =>
    simp only [List.filter_cons]
    by_cases hp : p x = true
    · simp [hp, h x hp, ih]
    · by_cases hq : q x = true
      · simp [hp, hq]; exact ih.cons x
      · simp [hp, hq, ih]


/-- **C03 (selection).** For a valid level the installed hooks are, on every node flavor,
exactly the rows of the documented table that are at or above the level, enabled and whose
data precondition holds. -/
theorem C03_registered (level : Char) (c : EnableConf) (m : Maps) (ck : Checks CheckFn)
    (h : registerChecks level c m = some ck) (fl : NodeFlavor) :
    ck fl = hooksOn level (fun id => isCheckEnabled id c) m fl := by
  unfold registerChecks at h
  unfold hooksOn checkTable
  simp only [hooksOn_cons, List.filter_nil, List.map_nil, List.append_nil]
  split at h <;> simp only [Option.some.injEq, reduceCtorEq] at h <;> subst h <;>
  simp (disch := decide) only [registerC, registerS, registerW, registerE, addIf_apply, Checks.empty,
      List.nil_append, List.append_assoc, needs_perm, needs_cls, namingNodes,
      atLeast, severityRank, Nat.reduceLeDiff, decide_true, decide_false, Bool.true_and, Bool.false_and,
      Bool.and_true, Bool.false_eq_true, if_false, Nat.le_refl, Nat.zero_le] <;>
  rfl

/-- **C03 (validity).** Registration fails exactly for levels that are not severities. -/
theorem C03_invalid_level (level : Char) (c : EnableConf) (m : Maps) :
    registerChecks level c m = none ↔ severityRank level = none := by
  unfold registerChecks severityRank
  split <;> simp

/-- **C03 (monotonicity).** Raising the level never adds a check: whatever is hooked at a
higher level is hooked at every lower one. -/
theorem C03_monotone (lo hi : Char) (a b : Nat) (c : EnableConf) (m : Maps)
    (ckLo ckHi : Checks CheckFn)
    (hlo : severityRank lo = some a) (hhi : severityRank hi = some b) (hab : a ≤ b)
    (h1 : registerChecks lo c m = some ckLo) (h2 : registerChecks hi c m = some ckHi)
    (fl : NodeFlavor) : (ckHi fl).Sublist (ckLo fl) := by
  rw [C03_registered lo c m ckLo h1, C03_registered hi c m ckHi h2]
  unfold hooksOn
  apply List.Sublist.map
  apply filter_sublist_filter
  intro r hr
  simp only [Bool.and_eq_true] at hr ⊢
  refine ⟨⟨⟨?_, hr.1.1.2⟩, hr.1.2⟩, hr.2⟩
  have := hr.1.1.1
  unfold atLeast at this ⊢
  rw [hhi] at this; rw [hlo]
  split at this <;> simp_all
  omega

/-- Non-vacuity: at level W with E-009 disabled, GEN_REQ nodes have no hook, at level C
they have C-006, S-001 and S-008; with classes known E-008 is hooked on AV rules. -/
example : ((registerChecks 'W' ⟨[], [cs!"E-009"], [], [], false⟩ {}).map
    fun ck => (ck .genReq).map (·.id)) = some [] := by decide
example : ((registerChecks 'C' ⟨[], [cs!"E-009"], [], [], false⟩ {}).map
    fun ck => (ck .genReq).map (·.id)) = some [cs!"C-006", cs!"S-001", cs!"S-008"] := by decide
example : ((registerChecks 'E' ⟨[], [], [], [], false⟩ { cls := [(cs!"file", cs!"x")] }).map
    fun ck => (ck .avRule).map (·.id)) = some [cs!"E-008"] := by decide

end Selint
