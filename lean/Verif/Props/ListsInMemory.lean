import Verif.Lemmas.ListsInMemory
import Verif.Model.Register
import Verif.Props.MapsInMemory
import Verif.Props.Ordering
/-!
# C88: the lists of checks, permission macros and sections in memory

The linked lists of check_hooks.c, perm_macro.c and ordering.c hold what the lists of the other
models hold, nothing that is not allocated is read, written or freed, a check that reports
leaves only its counter changed, and the functions that free a list give back all of it, once.
The exception is `prepare_ordering_metadata` when a line has no section: of the sections found
so far only the first element is given back.
-/

namespace Selint

open Spec

/-! ## Checks -/

/-- What the calls of `add_check` register. -/
def Spec.registered (calls : List (NodeFlavor × Str × Nat)) : Checks Nat :=
  calls.foldl (fun ck c => addCheck c.1 ck c.2.1 c.2.2) Checks.empty

/-- What the calls of `call_checks` do. -/
def Spec.afterCalls {σ : Type} (exec : Exec Nat σ) (suppress : Bool) (ck : Checks Nat)
    (nodes : List (CheckData × Loc)) (s : RunState σ) : Checks Nat × RunState σ :=
  nodes.foldl (fun r n => callChecks exec suppress r.1 n.1 n.2 r.2) (ck, s)

/-- The lists of a `struct checks`. -/
abbrev Spec.AllChecksAt := FamilyAt (ι := NodeFlavor) NodeFlavor.all checkCell (·.id)

theorem add_checks (calls : List (NodeFlavor × Str × Nat)) :
    ∀ {m : Mem} {hs : CheckHeads} {ck : Checks Nat} {ps R : List Addr},
      AllChecksAt m hs ck ps → Owns m (ps ++ R) →
      ∃ m' hs' ps', Mem.addChecks calls hs m = .ok (hs', m') ∧
        AllChecksAt m' hs' (calls.foldl (fun ck c => addCheck c.1 ck c.2.1 c.2.2) ck) ps' ∧
        Owns m' (ps' ++ R) ∧ EqOn m m' R := by
  induction calls with
  | nil => intro m hs ck ps R h ho; exact ⟨m, hs, ps, rfl, h, ho, EqOn.refl m R⟩
  | cons c calls ih =>
    obtain ⟨fl, id, fn⟩ := c
    intro m hs ck ps R h ho
    obtain ⟨qs, rest, h₁, ho₁, back⟩ := h.change NodeFlavor.nodup_all NodeFlavor.mem_all' fl ho
    obtain ⟨m₁, hd, qs', e₁, h₂, ho₂, he₂⟩ := add_check id fn h₁ ho₁
    obtain ⟨ps', h₃, ho₃, he₃, _⟩ := back m₁ hd _ qs' h₂ ho₂ he₂
    have hck : (fun j => if j = fl then ck fl ++ [⟨fn, id, 0⟩] else ck j) = addCheck fl ck id fn := by
      funext j
      simp only [addCheck]
      split
      · rename_i h; rw [h]
      · rfl
    rw [hck] at h₃
    obtain ⟨m', hs', ps'', e, h₄, ho₄, he₄⟩ := ih h₃ ho₃
    refine ⟨m', hs', ps'', ?_, h₄, ho₄, he₃.trans he₄⟩
    rw [Mem.addChecks, e₁, Res.bind_ok]
    exact e

/-- Registering checks: the lists in memory are the lists of the checks registered, in an
array of heads allocated before. -/
theorem C88_register {m₀ : Mem} (hb : Bounded m₀) (calls : List (NodeFlavor × Str × Nat)) :
    ∃ m hs ps, Mem.addChecks calls (fun _ => none) m₀ = .ok (hs, m) ∧
      AllChecksAt m hs (registered calls) ps ∧ Grows m₀ m ps ∧ Bounded m := by
  have h₀ : AllChecksAt m₀ (fun _ => none) Checks.empty [] :=
    ⟨fun _ => [], fun _ => .nil, by simp⟩
  obtain ⟨m, hs, ps, e, h, ho, he⟩ := add_checks calls h₀ (R := List.range m₀.top) (owns_range hb)
  exact ⟨m, hs, ps, e, h, grows_of_owns hb ho he h.live, ho.bounded⟩

/-- `register_checks` is such a sequence of calls, for any numbering of the check functions. -/
theorem C88_register_checks (number : CheckFn → Nat) (level : Char) (c : EnableConf) (maps : Maps)
    {ck : Checks CheckFn} (h : registerChecks level c maps = some ck) :
    ∃ calls, registered calls = fun fl => (ck fl).map fun n => ⟨number n.fn, n.id, n.issuesFound⟩ := by
  let num : Checks CheckFn → Checks Nat := fun ck fl =>
    (ck fl).map fun n => ⟨number n.fn, n.id, n.issuesFound⟩
  have h0 : ∃ calls, registered calls = num Checks.empty := ⟨[], rfl⟩
  have h1 : ∀ fl (ck : Checks CheckFn) id fn, (∃ calls, registered calls = num ck) →
      ∃ calls, registered calls = num (addCheck fl ck id fn) := by
    rintro fl ck id fn ⟨calls, e⟩
    refine ⟨calls ++ [(fl, id, number fn)], ?_⟩
    unfold registered at e ⊢
    rw [List.foldl_append, e]
    funext g
    simp only [List.foldl_cons, List.foldl_nil, addCheck, num]
    split <;> simp
  have h2 : ∀ cond id fn fls (ck : Checks CheckFn), (∃ calls, registered calls = num ck) →
      ∃ calls, registered calls = num (addIf cond id fn fls ck) := by
    intro cond id fn fls ck hk
    rw [addIf]
    split
    · induction fls generalizing ck with
      | nil => exact hk
      | cons fl fls ih => exact ih _ (h1 fl ck id fn hk)
    · exact hk
  have hC : ∀ en ck, (∃ calls, registered calls = num ck) →
      ∃ calls, registered calls = num (registerC en ck) := by
    intro en ck hk
    simp only [registerC]
    repeat' apply h2
    exact hk
  have hS : ∀ en ck, (∃ calls, registered calls = num ck) →
      ∃ calls, registered calls = num (registerS en ck) := by
    intro en ck hk
    simp only [registerS]
    repeat' apply h2
    exact hk
  have hW : ∀ en ck, (∃ calls, registered calls = num ck) →
      ∃ calls, registered calls = num (registerW en ck) := by
    intro en ck hk
    simp only [registerW]
    repeat' apply h2
    exact hk
  have hE : ∀ en ck, (∃ calls, registered calls = num ck) →
      ∃ calls, registered calls = num (registerE en maps ck) := by
    intro en ck hk
    simp only [registerE]
    repeat' apply h2
    exact hk
  simp only [registerChecks] at h
  split at h <;> first
    | (cases h; first
        | exact hE _ _ (hW _ _ (hS _ _ (hC _ _ h0)))
        | exact hE _ _ (hW _ _ (hS _ _ h0))
        | exact hE _ _ (hW _ _ h0)
        | exact hE _ _ h0
        | exact h0)
    | cases h

/-- Running checks on any nodes: the findings and the state are those of the model with lists,
and so are the counters; the lists consist of the same objects as before, and nothing else in
memory has changed. -/
theorem C88_call {σ : Type} (exec : Exec Nat σ) (suppress : Bool) {m : Mem} (hb : Bounded m)
    {hs : CheckHeads} (nodes : List (CheckData × Loc)) {ck : Checks Nat} {ps : List Addr}
    (h : AllChecksAt m hs ck ps) (hn : ps.Nodup) (s : RunState σ) :
    ∃ m', Mem.callAll exec suppress hs nodes m s = .ok (m', (afterCalls exec suppress ck nodes s).2) ∧
      AllChecksAt m' hs (afterCalls exec suppress ck nodes s).1 ps ∧ SameOff m m' ps ∧ Bounded m' := by
  have key : ∀ (nodes : List (CheckData × Loc)) {m : Mem} {ck : Checks Nat} {R : List Addr}
      (s : RunState σ), AllChecksAt m hs ck ps → Owns m (ps ++ R) →
      ∃ m', Mem.callAll exec suppress hs nodes m s = .ok (m', (afterCalls exec suppress ck nodes s).2) ∧
        AllChecksAt m' hs (afterCalls exec suppress ck nodes s).1 ps ∧ Owns m' (ps ++ R) ∧
        EqOn m m' R := by
    intro nodes
    induction nodes with
    | nil => intro m ck R s h ho; exact ⟨m, rfl, h, ho, EqOn.refl m R⟩
    | cons n nodes ih =>
      obtain ⟨data, node⟩ := n
      intro m ck R s h ho
      obtain ⟨qs, rest, h₁, ho₁, back⟩ :=
        h.change NodeFlavor.nodup_all NodeFlavor.mem_all' node.flavor ho
      have hfu := h₁.fuel ho₁
      obtain ⟨m₁, e₁, h₂, ho₂, he₂⟩ :=
        call_check_list exec suppress data node _ s h₁ ho₁ hfu
      obtain ⟨ps', h₃, ho₃, he₃, hps⟩ := back m₁ (hs node.flavor) _ qs h₂ ho₂ he₂
      rw [hps rfl] at h₃ ho₃
      have hh : (fun j => if j = node.flavor then hs node.flavor else hs j) = hs := by
        funext j
        split
        · rename_i h; rw [h]
        · rfl
      rw [hh] at h₃
      obtain ⟨m', e, h₄, ho₄, he₄⟩ := ih (ck := (callChecks exec suppress ck data node s).1)
        (callChecks exec suppress ck data node s).2 h₃ ho₃
      refine ⟨m', ?_, h₄, ho₄, he₃.trans he₄⟩
      rw [Mem.callAll, Mem.callChecks, e₁, Res.bind_ok]
      exact e
  obtain ⟨m', e, h', ho, he⟩ := key nodes s h (owns_split hb hn h.live)
  exact ⟨m', e, h', sameOff_of hb ho he, ho.bounded⟩

/-- `free_checks` gives back the lists and the array. -/
theorem C88_free {m : Mem} (hb : Bounded m) {hs : CheckHeads} {ck : Checks Nat} {p : Addr}
    {ps : List Addr} (h : AllChecksAt m hs ck ps) (hp : m.obj p ≠ none) (hn : (p :: ps).Nodup) :
    m.freeChecks p hs = .ok (dropped m (p :: ps)) := by
  have hlive := h.live
  obtain ⟨P, h, rfl⟩ := h
  have hn' := List.nodup_cons.1 hn
  have ho := owns_split hb hn'.2 hlive
  have hl := ho.length_le
  simp only [List.length_append] at hl
  rw [Mem.freeChecks, freeCheckLists_eq h NodeFlavor.all (EqOn.refl m _) hn'.2 (by omega),
    Res.bind_ok, step_one hp (by
      rw [List.nodup_append]
      exact ⟨hn'.2, by simp, fun a ha b hb e => hn'.1 (by simp at hb; rw [← hb, ← e]; exact ha)⟩)]
  exact congrArg Res.ok (dropped_perm (by pieces))

/-- From beginning to end: checks are registered, run on any nodes and freed; then memory is
what it was. -/
theorem C88_checks {σ : Type} (exec : Exec Nat σ) (suppress : Bool) {m₀ : Mem} (hb : Bounded m₀)
    (calls : List (NodeFlavor × Str × Nat)) (nodes : List (CheckData × Loc)) (s : RunState σ) :
    ∃ m₁ hs m₂ m₃,
      Mem.addChecks calls (fun _ => none) (m₀.malloc .raw).2 = .ok (hs, m₁) ∧
      Mem.callAll exec suppress hs nodes m₁ s =
        .ok (m₂, (afterCalls exec suppress (registered calls) nodes s).2) ∧
      m₂.freeChecks m₀.top hs = .ok m₃ ∧ ∀ q, m₃.obj q = m₀.obj q := by
  have ho₀ := (owns_range hb).malloc .raw
  obtain ⟨m₁, hs, ps, e₁, h₁, g₁, b₁⟩ := C88_register ho₀.bounded calls
  obtain ⟨m₂, e₂, h₂, g₂, b₂⟩ := C88_call exec suppress b₁ nodes h₁ g₁.nodup s
  have htop : m₀.top ∉ ps := fun hq => by
    have := (g₁.new _ hq).1
    simp [malloc_obj] at this
  have hl : m₂.obj m₀.top ≠ none := by
    rw [g₂ _ htop, g₁.same _ htop]; simp [malloc_obj]
  refine ⟨m₁, hs, m₂, _, e₁, e₂, C88_free b₂ h₂ hl (List.nodup_cons.2 ⟨htop, g₁.nodup⟩), ?_⟩
  intro q
  rw [dropped_obj]
  split
  · rename_i hq
    rcases List.mem_cons.1 hq with rfl | hq
    · exact (hb _ (Nat.le_refl _)).symm
    · have := (g₁.new q hq).1
      have hne : q ≠ m₀.top := by rintro rfl; exact htop hq
      rw [malloc_obj, if_neg hne] at this
      exact this.symm
  · rename_i hq
    simp only [List.mem_cons, not_or] at hq
    rw [g₂ q hq.2, g₁.same q hq.2, malloc_obj, if_neg hq.1]

/-! ## Permission macros -/

/-- The seven lists of macros. -/
abbrev Spec.AllMacrosAt := FamilyAt categories macroCell (·.name)

theorem load_macros (maps : Maps) (l : List (Str × List Str)) :
    ∀ {m : Mem} {hs : Category → Option Addr} {ls : Category → List PermMacro} {ps R : List Addr},
      AllMacrosAt m hs ls ps → Owns m (ps ++ R) →
      (loadAll maps l ls = .ub ∧ Mem.loadAllMacros maps l m hs = .ub) ∨
      ∃ ls' m' hs' ps', loadAll maps l ls = .ok ls' ∧
        Mem.loadAllMacros maps l m hs = .ok (hs', m') ∧
        AllMacrosAt m' hs' ls' ps' ∧ Owns m' (ps' ++ R) ∧ EqOn m m' R := by
  induction l with
  | nil => intro m hs ls ps R h ho; exact .inr ⟨ls, m, hs, ps, rfl, rfl, h, ho, EqOn.refl m R⟩
  | cons x l ih =>
    obtain ⟨name, perms⟩ := x
    intro m hs ls ps R h ho
    simp only [loadAll, Mem.loadAllMacros, loadPermissionMacro, Mem.loadPermissionMacro]
    cases hm : computePermMask maps perms ⟨0, 0⟩ with
    | ub => left; simp
    | ok r =>
      simp only [Res.bind_ok]
      by_cases hu : r.raw &&& Pm.uncovered ≠ 0
      · simp only [hu, ne_eq, not_false_eq_true, if_true, Res.bind_ok]
        exact ih h ho
      · simp only [hu, if_false]
        cases hc : macroCategory name with
        | none => simp only [Res.bind_ok]; exact ih h ho
        | some c =>
          simp only
          obtain ⟨qs, rest, h₁, ho₁, back⟩ := h.change nodup_categories mem_categories c ho
          obtain ⟨m₁, hd, qs', e₁, h₂, ho₂, he₂⟩ := insert_macro_cell ⟨name, r.raw⟩ h₁ ho₁
          obtain ⟨ps', h₃, ho₃, he₃, _⟩ := back m₁ hd _ qs' h₂ ho₂ he₂
          rw [e₁, Res.bind_ok, Res.bind_ok]
          rcases ih h₃ ho₃ with ⟨u₁, u₂⟩ | ⟨ls', m', hs', ps'', u₁, u₂, u₃, u₄, u₅⟩
          · exact .inl ⟨u₁, u₂⟩
          · exact .inr ⟨ls', m', hs', ps'', u₁, u₂, u₃, u₄, he₃.trans u₅⟩

/-- Loading the macros at the first call of `permmacro_check`: the seven lists in memory are
those of the model with lists, and nothing else has been allocated. Where that model has
undefined behaviour, this one has, too. -/
theorem C88_macros {m₀ : Mem} (hb : Bounded m₀) (maps : Maps) (l : List (Str × List Str)) :
    (∀ lists, loadAll maps l (fun _ => []) = .ok lists →
      ∃ m hs ps, Mem.loadAllMacros maps l m₀ (fun _ => none) = .ok (hs, m) ∧
        AllMacrosAt m hs lists ps ∧ Grows m₀ m ps ∧ Bounded m ∧
        m.freePermmacros hs = .ok (dropped m ps, fun _ => none) ∧
        ∀ q, (dropped m ps).obj q = m₀.obj q) ∧
    (loadAll maps l (fun _ => []) = .ub ↔
      Mem.loadAllMacros maps l m₀ (fun _ => none) = .ub) := by
  have h₀ : AllMacrosAt m₀ (fun _ => none) (fun _ => []) [] :=
    ⟨fun _ => [], fun _ => .nil, by simp⟩
  rcases load_macros maps l h₀ (R := List.range m₀.top) (owns_range hb) with
    ⟨u₁, u₂⟩ | ⟨ls', m, hs, ps, u₁, u₂, u₃, u₄, u₅⟩
  · rw [u₁, u₂]
    simp
  · rw [u₁, u₂]
    refine ⟨fun lists e => ?_, by simp⟩
    cases e
    have hg := grows_of_owns hb u₄ u₅ u₃.live
    have hl := u₄.length_le
    simp only [List.length_append] at hl
    refine ⟨m, hs, ps, rfl, u₃, hg, u₄.bounded, freePermmacros_eq u₃ hg.nodup (by omega), ?_⟩
    intro q
    rw [dropped_obj]
    split
    · rename_i hq; exact (hg.new q hq).1.symm
    · rename_i hq; exact hg.same q hq

/-! ## Sections -/

theorem Spec.SectionsAt.live {m : Mem} {p : Addr} {l ps} (h : SectionsAt m p l ps) : Live m ps := by
  rcases h with ⟨rfl, h, rfl⟩ | ⟨_, h⟩
  · intro q hq; simp at hq; subst hq; simp [h]
  · exact h.live

theorem Spec.SectionsAt.first {m : Mem} {p : Addr} {l ps} (h : SectionsAt m p l ps) :
    ∃ ps', ps.Perm (p :: ps') ∧ ps'.length = 2 * l.length - 1 := by
  rcases h with ⟨rfl, h, rfl⟩ | ⟨hne, h⟩
  · exact ⟨[], by simp, by simp⟩
  · have hlen := h.length
    cases h with
    | @cons _ a n x l ps h₁ h₂ h₃ hn =>
      refine ⟨a :: ps, by pieces, ?_⟩
      simp at hlen ⊢
      omega

theorem Spec.SectionsAt.congr {m m' : Mem} {p : Addr} {l ps} (h : SectionsAt m p l ps)
    (he : EqOn m m' ps) : SectionsAt m' p l ps := by
  rcases h with ⟨rfl, h, rfl⟩ | ⟨hne, h⟩
  · exact .inl ⟨rfl, (he p (by simp)).trans h, rfl⟩
  · exact .inr ⟨hne, h.congr he⟩

theorem collect_sections (maps : Maps) (ls : List Loc) (hline : ∀ l ∈ ls, l.info.lineno < 2 ^ 32) :
    ∀ {m : Mem} {p : Addr} {secs : List SectionData} {ps R : List Addr},
      SectionsAt m p secs ps → Owns m (ps ++ R) →
      (prepareSections maps ls secs = .ub ∧ Mem.collectSections maps ls m p = .ub) ∨
      (∃ secs' m' ps', prepareSections maps ls secs = .ok (some secs') ∧
        Mem.collectSections maps ls m p = .ok (true, m') ∧ SectionsAt m' p secs' ps' ∧
        Owns m' (ps' ++ R) ∧ EqOn m m' R) ∨
      (∃ before l after secs' m' ps', prepareSections maps ls secs = .ok none ∧
        ls = before ++ l :: after ∧ getSection maps l = .ok none ∧
        prepareSections maps before secs = .ok (some secs') ∧
        Mem.collectSections maps ls m p = .ok (false, m') ∧ SectionsAt m' p secs' ps' ∧
        Owns m' (ps' ++ R) ∧ EqOn m m' R) := by
  induction ls with
  | nil =>
    intro m p secs ps R h ho
    exact .inr (.inl ⟨secs, m, ps, rfl, rfl, h, ho, EqOn.refl m R⟩)
  | cons l ls ih =>
    intro m p secs ps R h ho
    simp only [prepareSections, Mem.collectSections]
    cases hs : getSection maps l with
    | ub => left; simp
    | ok o =>
      simp only [Res.bind_ok]
      cases o with
      | none =>
        right; right
        exact ⟨[], l, ls, secs, m, ps, rfl, rfl, hs, rfl, rfl, h, ho, EqOn.refl m R⟩
      | some s =>
        simp only
        obtain ⟨m₁, qs, e₁, h₁, ho₁, he₁⟩ :=
          add_section s (hline l (by simp)) h ho
        rw [e₁, Res.bind_ok]
        rcases ih (fun l hl => hline l (by simp [hl])) h₁ ho₁ with
          ⟨u₁, u₂⟩ | ⟨secs', m', ps', u₁, u₂, u₃, u₄, u₅⟩ |
          ⟨before, l', after, secs', m', ps', u₁, u₂, u₃, u₄, u₅, u₆, u₇, u₈⟩
        · exact .inl ⟨u₁, u₂⟩
        · exact .inr (.inl ⟨secs', m', ps', u₁, u₂, u₃, u₄, he₁.trans u₅⟩)
        · refine .inr (.inr ⟨l :: before, l', after, secs', m', ps', u₁, by rw [u₂]; rfl, u₃, ?_, u₅,
            u₆, u₇, he₁.trans u₈⟩)
          simp only [prepareSections, hs, Res.bind_ok]
          exact u₄

/-- The first element without sections, or the list. -/
theorem free_sections {m : Mem} {p : Addr} {l ps ds} (h : SectionsAt m p l ps)
    (hd : ∀ q ∈ ps, q ∉ ds) (hl : ps.length ≤ m.top) :
    Mem.freeSectionData (dropped m ds).top (dropped m ds) (some p) = .ok (dropped m (ds ++ ps)) := by
  rcases h with ⟨rfl, h, rfl⟩ | ⟨_, h⟩
  · obtain ⟨t, ht⟩ : ∃ t, m.top = t + 1 := ⟨m.top - 1, by simp at hl; omega⟩
    have e : (dropped m ds).obj p = some (.sect ⟨none, 0, 0, none⟩) := by
      rw [dropped_obj, if_neg (hd p (by simp)), h]
    rw [dropped_top, ht, Mem.freeSectionData, get_eq e (f := Obj.sect?) rfl, Res.bind_ok]
    have e₁ : (dropped m ds).free none = .ok (dropped m ds) := rfl
    have e₂ : Mem.freeSectionData t (dropped m ds) none = .ok (dropped m ds) := by cases t <;> rfl
    rw [e₁, Res.bind_ok, e₂, Res.bind_ok, free_ok (by simp [e]), dropped_dropped]
  · have := h.length
    rw [freeSectionData_eq h (eqOn_dropped m hd) (by simp only [dropped_top]; omega),
      dropped_dropped]

/-- The sections of a file in memory are those of the model with lists;
`free_ordering_metadata` gives back all of them. -/
theorem C88_sections {m₀ : Mem} (hb : Bounded m₀) (maps : Maps) (head : Loc)
    (hline : ∀ l ∈ orderingNodes head, l.info.lineno < 2 ^ 32) {secs : List SectionData}
    (h : prepareSections maps (orderingNodes head) [] = .ok (some secs)) :
    ∃ r p m ps, m₀.prepareOrdering maps head = .ok (some r, m) ∧
      m.obj r = some (.ordering (some p)) ∧ SectionsAt m p secs ps ∧ Grows m₀ m (r :: ps) ∧
      Bounded m ∧ m.freeOrderingMetadata (some r) = .ok (dropped m (ps ++ [r])) ∧
      ∀ q, (dropped m (ps ++ [r])).obj q = m₀.obj q := by
  have ho := (owns_range hb).malloc (.sect ⟨none, 0, 0, none⟩)
  have hs : SectionsAt (m₀.malloc (.sect ⟨none, 0, 0, none⟩)).2 m₀.top [] [m₀.top] :=
    .inl ⟨rfl, malloc_self _ _, rfl⟩
  have he := eqOn_malloc (owns_range hb) (.sect ⟨none, 0, 0, none⟩)
  rcases collect_sections maps _ hline hs ho with
    ⟨u₁, u₂⟩ | ⟨secs', m', ps', u₁, u₂, u₃, u₄, u₅⟩ |
    ⟨before, l', after, secs', m', ps', u₁, _⟩
  · rw [h] at u₁; cases u₁
  · rw [h] at u₁
    cases u₁
    simp only [Mem.prepareOrdering, malloc_fst, u₂, Res.bind_ok]
    have ho' := u₄.malloc (.ordering (some m₀.top))
    have he' := eqOn_malloc u₄ (.ordering (some m₀.top))
    have hr := malloc_self m' (.ordering (some m₀.top))
    have ht : (m'.malloc (.ordering (some m₀.top))).2.top = m'.top + 1 := rfl
    have hl := u₄.length_le
    simp only [List.length_append] at hl
    generalize (m'.malloc (.ordering (some m₀.top))).2 = m at ho' he' hr ht ⊢
    have hsec := u₃.congr he'.left
    have hg : Grows m₀ m (m'.top :: ps') := by
      refine grows_of_owns hb (ho'.perm (by simp)) ?_ ?_
      · exact (he.trans u₅).trans he'.right
      · intro q hq
        rcases List.mem_cons.1 hq with rfl | hq
        · simp [hr]
        · exact hsec.live q hq
    have hnd := List.nodup_cons.1 hg.nodup
    refine ⟨m'.top, m₀.top, m, ps', rfl, hr, hsec, hg, ho'.bounded, ?_, ?_⟩
    · have h0 : m = dropped m [] := by simp [dropped]
      rw [Mem.freeOrderingMetadata, get_eq hr (f := Obj.ordering?) rfl, Res.bind_ok]
      have := free_sections hsec (ds := []) (by simp) (by omega)
      rw [← h0, List.nil_append] at this
      rw [this, Res.bind_ok, step_one (by simp [hr]) (by
        rw [List.nodup_append]
        exact ⟨hnd.2, by simp, fun a ha b hb e => hnd.1 (by simp at hb; rw [← hb, ← e]; exact ha)⟩)]
    · intro q
      rw [dropped_obj]
      split
      · rename_i hq
        exact (hg.new q (by simp at hq ⊢; exact hq.symm)).1.symm
      · rename_i hq
        exact hg.same q (by simp at hq ⊢; exact ⟨hq.2, hq.1⟩)
  · rw [h] at u₁; cases u₁

/-- A line without section: NULL is returned, and of the sections of the lines before it all
but the first element stay allocated. -/
theorem C88_sections_left {m₀ : Mem} (hb : Bounded m₀) (maps : Maps) (head : Loc)
    (hline : ∀ l ∈ orderingNodes head, l.info.lineno < 2 ^ 32)
    (h : prepareSections maps (orderingNodes head) [] = .ok none) :
    ∃ before l after secs m lost, orderingNodes head = before ++ l :: after ∧
      getSection maps l = .ok none ∧ prepareSections maps before [] = .ok (some secs) ∧
      m₀.prepareOrdering maps head = .ok (none, m) ∧ Grows m₀ m lost ∧
      lost.length = 2 * secs.length - 1 := by
  have ho := (owns_range hb).malloc (.sect ⟨none, 0, 0, none⟩)
  have hs : SectionsAt (m₀.malloc (.sect ⟨none, 0, 0, none⟩)).2 m₀.top [] [m₀.top] :=
    .inl ⟨rfl, malloc_self _ _, rfl⟩
  have he := eqOn_malloc (owns_range hb) (.sect ⟨none, 0, 0, none⟩)
  rcases collect_sections maps _ hline hs ho with
    ⟨u₁, u₂⟩ | ⟨secs', m', ps', u₁, _⟩ |
    ⟨before, l', after, secs', m', ps', u₁, u₂, u₃, u₄, u₅, u₆, u₇, u₈⟩
  · rw [h] at u₁; cases u₁
  · rw [h] at u₁; cases u₁
  · obtain ⟨lost, hp, hlen⟩ := u₆.first
    have hlive := u₆.live
    have ho' : Owns m' ([m₀.top] ++ (lost ++ List.range m₀.top)) :=
      u₇.perm ((hp.append_right _).trans (by simp))
    refine ⟨before, l', after, secs', dropped m' [m₀.top], lost, u₂, u₃, u₄, ?_, ?_, hlen⟩
    · simp only [Mem.prepareOrdering, malloc_fst, u₅, Res.bind_ok]
      rw [free_ok (hlive _ (hp.mem_iff.2 (by simp))), Res.bind_ok]
    · refine grows_of_owns hb ho'.dropped
        ((he.trans u₈).trans ho'.eqOn_dropped.right) ?_
      intro q hq
      rw [ho'.eqOn_dropped q (by simp [hq])]
      exact hlive q (hp.mem_iff.2 (by simp [hq]))

/-- Undefined behaviour of `get_section` is undefined behaviour here. -/
theorem C88_sections_undefined {m₀ : Mem} (hb : Bounded m₀) (maps : Maps) (head : Loc)
    (hline : ∀ l ∈ orderingNodes head, l.info.lineno < 2 ^ 32) :
    prepareSections maps (orderingNodes head) [] = .ub ↔ m₀.prepareOrdering maps head = .ub := by
  constructor
  · intro h
    have ho := (owns_range hb).malloc (.sect ⟨none, 0, 0, none⟩)
    have hs : SectionsAt (m₀.malloc (.sect ⟨none, 0, 0, none⟩)).2 m₀.top [] [m₀.top] :=
      .inl ⟨rfl, malloc_self _ _, rfl⟩
    rcases collect_sections maps _ hline hs ho with
      ⟨u₁, u₂⟩ | ⟨_, _, _, u₁, _⟩ | ⟨_, _, _, _, _, _, u₁, _⟩
    · simp only [Mem.prepareOrdering, malloc_fst, u₂, Res.bind_ub]
    · rw [h] at u₁; cases u₁
    · rw [h] at u₁; cases u₁
  · intro h
    cases hp : prepareSections maps (orderingNodes head) [] with
    | ub => rfl
    | ok o =>
      cases o with
      | none =>
        obtain ⟨_, _, _, _, _, _, _, _, _, e, _⟩ := C88_sections_left hb maps head hline hp
        rw [e] at h; cases h
      | some secs =>
        obtain ⟨_, _, _, _, e, _⟩ := C88_sections hb maps head hline hp
        rw [e] at h; cases h

/-- In a parsed te file every line has a section, so nothing is lost. -/
theorem C88_sections_parsed {m₀ : Mem} (hb : Bounded m₀) (maps : Maps) (head : Loc)
    (h : TeFile head) (hline : ∀ l ∈ orderingNodes head, l.info.lineno < 2 ^ 32) :
    ∃ secs r m m', prepareSections maps (orderingNodes head) [] = .ok (some secs) ∧
      m₀.prepareOrdering maps head = .ok (some r, m) ∧ m.freeOrderingMetadata (some r) = .ok m' ∧
      ∀ q, m'.obj q = m₀.obj q := by
  obtain ⟨secs, e, _⟩ := prepareSections_ok maps (orderingNodes head) h.nodes []
  obtain ⟨r, p, m, ps, e₁, _, _, _, _, e₂, e₃⟩ := C88_sections hb maps head hline e
  exact ⟨secs, r, m, _, e, e₁, e₂, e₃⟩

/-! ## Non-vacuity -/

/-- An access vector rule for a source type at a line. -/
def exampleRule (src : Str) (line : Nat) : Tree :=
  .mk ⟨.av ⟨.allow, [src], [cs!"b_t"], [cs!"file"], [cs!"read"]⟩, none, line⟩ []

/-- A te file with these lines. -/
def exampleTe (ts : List Tree) : Loc :=
  ⟨.mk ⟨.plain .teFile none, none, 0⟩ [], [], ts, []⟩

/-- A check that reports every other time, and other checks that never do. -/
def exampleExec : Exec Nat Nat := fun fn _ _ st =>
  (st + 1, if fn = 1 ∧ st % 2 = 0 then some ⟨'W', 8, cs!"risky"⟩ else none)

/-- Two checks for rules and one for declarations, called for three rules: one of them reports
each time. -/
example :
    (match Mem.addChecks [(.avRule, cs!"W-008", 1), (.decl, cs!"C-005", 2), (.avRule, cs!"S-009", 3)]
        (fun _ => none) (Mem.empty.malloc .raw).2 with
      | .ok (hs, m) =>
        let d : CheckData := ⟨cs!"a", cs!"a.te", .teFile, ⟨.ref, [], false, false, []⟩⟩
        let n : Loc := ⟨exampleRule cs!"a_t" 4, [], [], []⟩
        (match Mem.callAll exampleExec false hs [(d, n), (d, n), (d, n)] m ⟨false, 0, []⟩ with
          | .ok (m, s) =>
            (match m.freeChecks 0 hs with
              | .ok m' => (m.get Obj.check? 1, s.out.length, m.top, m'.obj 1, m'.obj 0)
              | .ub => (.ub, 0, 0, none, none))
          | .ub => (.ub, 0, 0, none, none))
      | .ub => (.ub, 0, 0, none, none)) =
    (.ok ⟨1, some 2, 3, some 5⟩, 3, 13, none, none) := by
  with_unfolding_all rfl

/-- Three lines of two sections. -/
example : prepareSections {} (orderingNodes (exampleTe
      [exampleRule cs!"a_t" 2, exampleRule cs!"b_t" 3, exampleRule cs!"a_t" 6])) [] =
    .ok (some [⟨cs!"a_t", 2, 8⟩, ⟨cs!"b_t", 1, 3⟩]) := by with_unfolding_all rfl

/-- A block without anything in it, which no parsed file has, after two sections: three objects
are lost. -/
example : prepareSections {} (orderingNodes (exampleTe
      [exampleRule cs!"a_t" 2, exampleRule cs!"b_t" 3, .mk ⟨.plain .ifdef none, none, 4⟩ []])) [] =
      .ok none ∧
    (match Mem.empty.prepareOrdering {} (exampleTe
        [exampleRule cs!"a_t" 2, exampleRule cs!"b_t" 3, .mk ⟨.plain .ifdef none, none, 4⟩ []]) with
      | .ok (none, m) => (List.range m.top).filter fun q => (m.obj q).isSome
      | _ => []) = [1, 2, 3] := ⟨by with_unfolding_all rfl, by with_unfolding_all rfl⟩

/-- Three macros of one class: in memory they are in the order of the number of permissions. -/
example : ∃ lists, loadAll {} [(cs!"rw_file_perms", [cs!"read", cs!"write"]),
      (cs!"r_file_perms", [cs!"read"]), (cs!"x_process_perms", [cs!"read"])] (fun _ => []) =
      .ok lists ∧ (lists .file).map (·.name) = [cs!"r_file_perms", cs!"rw_file_perms"] :=
  ⟨_, rfl, by with_unfolding_all rfl⟩

end Selint
