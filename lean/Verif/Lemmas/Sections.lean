import Verif.Spec.Sections
import Verif.Props.OrderingRules
/-! # Sections, subsections and averages of C-001 -/

namespace Selint
open Spec

theorem required_iff (l : Loc) : l.isInRequire = true ↔ Required l := by
  simp [Loc.isInRequire, Required]

theorem conditional_data {l : Loc} (h : isConditional l.flavor = true) :
    ¬IsFree l.data ∧ ¬IsDeclaration l.data ∧ (∀ d, ¬IsRule d l.data) ∧ (∀ d, l.data ≠ .tt d) ∧
      (∀ d, l.data ≠ .ifCall d) ∧ l.flavor ≠ .startBlock := by
  have e : l.flavor = l.data.flavor := rfl
  rw [e] at h ⊢
  revert h
  generalize l.data = dd
  intro h
  cases dd with
  | plain f s =>
    cases f <;> first
      | (simp [NodeData.flavor, PlainFlavor.toFlavor, isConditional, conditionalOf] at h; done)
      | simp [IsFree, IsDeclaration, IsRule, NodeData.flavor, PlainFlavor.toFlavor]
  | attr d => simp only [NodeData.flavor] at h; split at h <;> simp [isConditional, conditionalOf] at h
  | _ => simp [NodeData.flavor, isConditional, conditionalOf] at h

theorem startBlock_data {l : Loc} (h : l.flavor = .startBlock) :
    ¬IsFree l.data ∧ ¬IsDeclaration l.data ∧ (∀ d, ¬IsRule d l.data) ∧ (∀ d, l.data ≠ .tt d) ∧
      (∀ d, l.data ≠ .ifCall d) ∧ isConditional l.flavor = false := by
  have e : l.flavor = l.data.flavor := rfl
  rw [e] at h ⊢
  revert h
  generalize l.data = dd
  intro h
  cases dd with
  | plain f s =>
    cases f <;> first
      | (simp [NodeData.flavor, PlainFlavor.toFlavor] at h; done)
      | simp [IsFree, IsDeclaration, IsRule, NodeData.flavor, PlainFlavor.toFlavor, isConditional, conditionalOf]
  | attr d => simp only [NodeData.flavor] at h; split at h <;> simp at h
  | _ => simp [NodeData.flavor] at h

theorem conditional_cases {l : Loc} : isConditional l.flavor = true ↔
    l.flavor = .optionalPolicy ∨ l.flavor = .optionalElse ∨ l.flavor = .booleanPolicy ∨
      l.flavor = .tunablePolicy ∨ l.flavor = .ifdef ∨ l.flavor = .ifelse := by
  generalize l.flavor = f
  cases f <;> simp [isConditional, conditionalOf]

theorem outermost_none_iff (l : Loc) : outermost l = none ↔
    (!isOptional l && !isInIfdef l && !isBoolean l && !isTunable l) = true := by
  obtain ⟨h1, h2, h3, h4⟩ := C32_outermost_decides l
  constructor
  · intro h
    obtain ⟨a, b, c, d⟩ := outside h
    simp [a, b, c, d]
  · intro h
    simp only [Bool.and_eq_true, Bool.not_eq_true', ← Bool.not_eq_true] at h
    obtain ⟨⟨⟨a, b⟩, c⟩, d⟩ := h
    rw [h1] at a; rw [h4] at b; rw [h2] at c; rw [h3] at d
    cases e : outermost l with
    | none => rfl
    | some k => cases k <;> simp_all

theorem declaring_iff (m : Maps) (d : IfCallData) (l : Loc) : Declares m d l ↔
    (!isOptional l && !isInIfdef l && !isBoolean l && !isTunable l &&
      ((m.lookUpTemplate d.name).isSome || m.isTransform d.name || m.isRole d.name)) = true := by
  rw [Bool.and_eq_true, ← outermost_none_iff, Declares]
  simp [Option.isSome_iff_ne_none, or_assoc]

theorem freeRule_iff (d : AvData) : FreeRule d ↔ d.flavor = .neverallow ∨ d.flavor = .auditallow ∨
    (strInSl cs!"associate" d.perms || strInSl cs!"mounton" d.perms) = true := by
  simp [FreeRule, strInSl_iff]

theorem rule_flavor {d : AvData} {l : Loc} (h : IsRule d l.data) : l.data = .av d ∨ ∃ op, l.data = .xav d op := h

/-- One step of `get_section`. -/
theorem getSection_succ (m : Maps) (l : Loc) : ∃ f, getSection m l = getSectionF m (f + 1) l :=
  ⟨l.fuel - 1, by
    have := Tree.size_pos l.focus
    rw [getSection]
    congr 1
    simp only [Loc.fuel]; omega⟩

/-- The section the code computes is the one of the specification. -/
theorem section_title {m : Maps} {l : Loc} {s : Section} (h : InSection m l s) :
    getSection m l = .ok (some s.title) := by
  induction h with
  | @free l h =>
    obtain ⟨f, e⟩ := getSection_succ m l
    rw [e]; unfold getSectionF
    revert h
    generalize l.data = dd
    intro h
    cases dd with
    | plain f s =>
      cases f <;> first | rfl | (simp [IsFree] at h; done)
    | _ => first | rfl | exact absurd h id
  | @required l h hr =>
    obtain ⟨f, e⟩ := getSection_succ m l
    rw [e]; unfold getSectionF
    rw [← required_iff] at hr
    revert h
    generalize l.data = dd
    intro h
    cases dd with
    | plain f s =>
      cases f <;> first | (simp [hr]; rfl) | exact absurd h id
    | _ => first | (simp [hr]; rfl) | exact absurd h id
  | @declaration l h hr =>
    obtain ⟨f, e⟩ := getSection_succ m l
    rw [e]; unfold getSectionF
    rw [← required_iff] at hr
    revert h
    generalize l.data = dd
    intro h
    cases dd with
    | plain f s =>
      cases f <;> first | (simp [hr]; rfl) | exact absurd h id
    | _ => first | (simp [hr]; rfl) | exact absurd h id
  | @freeRule l d h hf =>
    obtain ⟨f, e⟩ := getSection_succ m l
    rw [e]; unfold getSectionF
    rw [freeRule_iff] at hf
    rcases h with h | ⟨op, h⟩ <;> rw [h] <;> dsimp only <;>
      (rcases hf with hf | hf | hf <;> simp only [hf, if_true] <;> (repeat' split) <;> rfl)
  | @rule l d s ss h hf hs =>
    obtain ⟨f, e⟩ := getSection_succ m l
    rw [e]; unfold getSectionF
    rw [freeRule_iff] at hf
    rcases h with h | ⟨op, h⟩ <;> rw [h] <;> dsimp only <;>
      (rw [if_neg (fun x => hf (.inl x)), if_neg (fun x => hf (.inr (.inl x))),
        if_neg (fun x => hf (.inr (.inr x))), hs]; rfl)
  | @transition l d s ss h hs =>
    obtain ⟨f, e⟩ := getSection_succ m l
    rw [e]; unfold getSectionF
    rw [h]; dsimp only; rw [hs]; rfl
  | @filetrans l d h hf =>
    obtain ⟨f, e⟩ := getSection_succ m l
    rw [e]; unfold getSectionF
    rw [h]; dsimp only; rw [if_pos hf]; rfl
  | @declaring l d h hf hd =>
    obtain ⟨f, e⟩ := getSection_succ m l
    rw [e]; unfold getSectionF
    rw [h]; dsimp only; rw [if_neg hf, if_pos ((declaring_iff m d l).1 hd)]; rfl
  | @call l d s ss h hf hd hs =>
    obtain ⟨f, e⟩ := getSection_succ m l
    rw [e]; unfold getSectionF
    rw [h]; dsimp only; rw [if_neg hf, if_neg (fun x => hd ((declaring_iff m d l).2 x)), hs]; rfl
  | @callNoArgs l d h hf hd hs =>
    obtain ⟨f, e⟩ := getSection_succ m l
    rw [e]; unfold getSectionF
    rw [h]; dsimp only; rw [if_neg hf, if_neg (fun x => hd ((declaring_iff m d l).2 x)), hs]; rfl
  | block h hc _ ih => rw [getSection_firstChild m _ h, hc]; exact ih
  | start h hn _ ih => rw [getSection_startBlock m _ h, hn]; exact ih
  | emptyBlock h hn => rw [getSection_startBlock m _ h, hn]; rfl

/-- A section name that is not mistaken for one of the two special ones. -/
def Spec.Section.Ordinary : Section → Prop
  | .of s => s.head? ≠ some '_'
  | _ => True

theorem Spec.Section.title_inj {s t : Section} (hs : s.Ordinary) (ht : t.Ordinary)
    (h : s.title = t.title) : s = t := by
  cases s <;> cases t <;> simp only [Section.title] at h <;> first
    | rfl
    | (subst h; rfl)
    | (exact absurd h (by decide))
    | (subst h; exact absurd rfl hs)
    | (subst h; exact absurd rfl ht)

theorem Spec.InSection.ordinary {m : Maps} {l : Loc} {s : Section} (h : InSection m l s) :
    ShapedLoc l → s.Ordinary := by
  induction h with
  | @rule l d s ss h hf hs =>
    intro hl
    have := hl.focus.node.2.2.2.2.1
    have e : l.focus.info.data = l.data := rfl
    rw [e] at this
    rcases h with h | ⟨op, h⟩ <;> (rw [h] at this; exact this.2 s (by rw [hs]; rfl))
  | @transition l d s ss h hs =>
    intro hl
    have := hl.focus.node.2.2.2.2.1
    have e : l.focus.info.data = l.data := rfl
    rw [e, h] at this
    exact this.2 s (by rw [hs]; rfl)
  | @call l d s ss h hf hd hs =>
    intro hl
    have := hl.focus.node.2.2.2.2.1
    have e : l.focus.info.data = l.data := rfl
    rw [e, h] at this
    exact this s (by rw [hs]; rfl)
  | block h hc _ ih => intro hl; exact ih (hl.firstChild hc)
  | start h hn _ ih => intro hl; exact ih (hl.next hn).1
  | _ => intro _; trivial

/-- Every line of a te file has a section. -/
theorem section_exists (m : Maps) {l : Loc} (h : ShapedLoc l) : ∃ s, InSection m l s := by
  generalize hf : l.fuel = f
  induction f using Nat.strongRecOn generalizing l with
  | _ f ih =>
  subst hf
  obtain ⟨_, _, _, hne, hrule, hfl⟩ := h.focus.node
  have e1 : l.focus.info.data = l.data := rfl
  have e2 : l.focus.info.flavor = l.flavor := rfl
  have e3 : l.flavor = l.data.flavor := rfl
  rw [e1] at hrule
  rw [e2] at hfl hne
  by_cases hc : isConditional l.flavor = true
  · have hne := hne hc
    cases hfc : l.firstChild? with
    | none =>
      unfold Loc.firstChild? at hfc
      split at hfc
      · rename_i e; exact absurd e hne
      · cases hfc
    | some c =>
      obtain ⟨s, hs⟩ := ih _ (fuel_firstChild hfc) (h.firstChild hfc) rfl
      exact ⟨s, .block hc hfc hs⟩
  by_cases hsb : l.flavor = .startBlock
  · cases hn : l.next? with
    | none => exact ⟨_, .emptyBlock hsb hn⟩
    | some c =>
      obtain ⟨s, hs⟩ := ih _ (fuel_next hn) (h.next hn).1 rfl
      exact ⟨s, .start hsb hn hs⟩
  have hdecl : IsDeclaration l.data → ∃ s, InSection m l s := fun hd => by
    by_cases hr : Required l
    · exact ⟨_, .required hd hr⟩
    · exact ⟨_, .declaration hd hr⟩
  have hav : ∀ d, IsRule d l.data → d.sources ≠ [] → ∃ s, InSection m l s := fun d hd hs => by
    by_cases hr : FreeRule d
    · exact ⟨_, .freeRule hd hr⟩
    · cases he : d.sources with
      | nil => exact absurd he hs
      | cons s ss => exact ⟨_, .rule hd hr he⟩
  rw [e3] at hfl hc hsb
  cases hd : l.data with
  | av d => rw [hd] at hrule; exact hav d (.inl hd) hrule.1
  | xav d op => rw [hd] at hrule; exact hav d (.inr ⟨op, hd⟩) hrule.1
  | tt d =>
    rw [hd] at hrule
    cases he : d.targets with
    | nil => exact absurd he hrule.1
    | cons s ss => exact ⟨_, .transition hd he⟩
  | ifCall d =>
    by_cases hf : m.isFiletrans d.name = true
    · exact ⟨_, .filetrans hd hf⟩
    by_cases hdec : Declares m d l
    · exact ⟨_, .declaring hd hf hdec⟩
    cases he : d.argStrs with
    | nil => exact ⟨_, .callNoArgs hd hf hdec he⟩
    | cons s ss => exact ⟨_, .call hd hf hdec he⟩
  | decl d => exact hdecl (by rw [hd]; trivial)
  | attr d => exact hdecl (by rw [hd]; trivial)
  | fc d => rw [hd] at hfl; simp [NodeData.flavor] at hfl
  | plain f s =>
    rw [hd] at hfl hc hsb
    cases f <;> first
      | (refine hdecl ?_; rw [hd]; trivial)
      | (refine ⟨_, .free ?_⟩; rw [hd]; simp [IsFree]; done)
      | (simp [NodeData.flavor, PlainFlavor.toFlavor] at hfl; done)
      | (simp [NodeData.flavor, PlainFlavor.toFlavor] at hsb; done)
      | (simp [NodeData.flavor, PlainFlavor.toFlavor, isConditional, conditionalOf] at hc; done)
  | _ => exact ⟨_, .free (by rw [hd]; trivial)⟩

theorem section_unique {m : Maps} {l : Loc} (h : ShapedLoc l) {s t : Section} (hs : InSection m l s)
    (ht : InSection m l t) : s = t := by
  have := (section_title hs).symm.trans (section_title ht)
  simp only [Res.ok.injEq, Option.some.injEq] at this
  exact Section.title_inj (hs.ordinary h) (ht.ordinary h) this

/-! ## Names -/

theorem stem_take (s : Str) : stem s = s.take (sectionStemLen s) ∧ sectionStemLen s ≤ s.length := by
  unfold stem sectionStemLen
  obtain ⟨r, rfl⟩ : ∃ r : Str, s = r.reverse := ⟨s.reverse, by simp⟩
  rw [List.reverse_reverse]
  have suf : ∀ a : Str, a.reverse <:+ r.reverse ↔ a <+: r := fun a => by
    rw [List.reverse_suffix]
  have h1 : cs!"_t" <:+ r.reverse ↔ ['t', '_'] <+: r := suf ['t', '_']
  have h2 : cs!"_r" <:+ r.reverse ↔ ['r', '_'] <+: r := suf ['r', '_']
  simp only [h1, h2]
  match r with
  | [] => simp
  | [a] => simp
  | [a, b] => simp
  | c :: b :: x :: xs =>
    by_cases hb : b = '_'
    · subst hb
      have : (['t', '_'] <+: c :: '_' :: x :: xs ∨ ['r', '_'] <+: c :: '_' :: x :: xs) ↔
          (c = 't' ∨ c = 'r') := by
        simp [List.cons_prefix_cons, eq_comm]
      have hl : 2 < (c :: '_' :: x :: xs).reverse.length := by simp
      simp only [hl, true_and, this]
      split
      · exact ⟨rfl, by omega⟩
      · exact ⟨List.take_length.symm, Nat.le_refl _⟩
    · have : ¬(['t', '_'] <+: c :: b :: x :: xs ∨ ['r', '_'] <+: c :: b :: x :: xs) := by
        simp [List.cons_prefix_cons, Ne.symm hb]
      simp only [this, and_false, if_false]
      split
      · rename_i h
        simp only [List.cons.injEq] at h
        exact absurd h.2.1 hb
      · exact ⟨List.take_length.symm, Nat.le_refl _⟩

theorem sameSection_aux {s t : Str} (h : sectionStemLen s ≤ sectionStemLen t) :
    (s.take (sectionStemLen t) == t.take (sectionStemLen t)) = true ↔ SameName s t := by
  obtain ⟨e1, l1⟩ := stem_take s
  obtain ⟨e2, l2⟩ := stem_take t
  rw [beq_iff_eq, SameName, e1, e2]
  constructor
  · intro e
    constructor
    · have : s.take (sectionStemLen s) = (s.take (sectionStemLen t)).take (sectionStemLen s) := by
        rw [List.take_take, Nat.min_eq_left h]
      rw [this, e, List.take_take]
      exact List.take_prefix _ _
    · rw [← e]; exact List.take_prefix _ _
  · rintro ⟨-, hp⟩
    have := List.prefix_iff_eq_take.1 hp
    rw [List.length_take, Nat.min_eq_left l2] at this
    exact this.symm

theorem sameSection_iff (s t : Str) : isSameSection s t = true ↔ SameName s t := by
  unfold isSameSection strncmpEq
  split
  · rename_i h
    have := sameSection_aux (s := t) (t := s) (by omega)
    rw [beq_iff_eq] at this ⊢
    rw [eq_comm, this]
    exact and_comm
  · rename_i h
    exact sameSection_aux (by omega)

/-! ## Subsections -/

theorem subsection_call_unknown (m : Maps) (mod : Str) (v : OrderConf) (l : Loc) (d : IfCallData)
    (hd : l.data = .ifCall d) (hif : m.lookUpIf d.name = none) (ho : outermost l = none) :
    (OwnNames m mod l → getLocalSubsection m mod v l = .own) ∧
    (¬OwnNames m mod l → getLocalSubsection m mod v l = .other) := by
  obtain ⟨o1, o2, o3, o4⟩ := outside ho
  have hc : calledModule m l = none := by simp [calledModule, hd, hif]
  have hfl : l.flavor = .ifCall := by
    have : l.flavor = l.data.flavor := rfl
    rw [this, hd]; rfl
  have hself : isSelfRule l = false := by simp [isSelfRule, hd]
  have hown : isOwnModuleRule m mod l = true ↔ OwnNames m mod l := by
    simp only [isOwnModuleRule, hd, hif, Option.isSome_none, Bool.false_eq_true, if_false]
    exact ownNames_iff m mod _
  constructor
  · intro h
    unfold getLocalSubsection
    simp [o1, o2, o3, o4, hself, hown.2 h]
  · intro h
    have : isOwnModuleRule m mod l = false := by
      rw [← Bool.not_eq_true, hown]; exact h
    unfold getLocalSubsection
    simp [o1, o2, o3, o4, hself, this, isOwnModIfCall, isRelatedModIfCall, isKernelModIfCall, checkCallLayer,
      hc, hfl]

theorem subsection_other (m : Maps) (mod : Str) (v : OrderConf) (l : Loc)
    (h1 : ∀ d, ¬IsRule d l.data) (h2 : ∀ d, l.data ≠ .ifCall d) (ho : outermost l = none) :
    getLocalSubsection m mod v l = .unknown := by
  obtain ⟨o1, o2, o3, o4⟩ := outside ho
  have e : l.flavor = l.data.flavor := rfl
  unfold getLocalSubsection isSelfRule isOwnModuleRule isOwnModIfCall isRelatedModIfCall isKernelModIfCall
    checkCallLayer calledModule
  rw [e]
  have h3 : ∀ d, l.data ≠ .av d := fun d h => h1 d (.inl h)
  have h4 : ∀ d op, l.data ≠ .xav d op := fun d op h => h1 d (.inr ⟨op, h⟩)
  revert h2 h3 h4
  generalize l.data = dd
  intro h2 h3 h4
  cases dd with
  | av d => exact absurd rfl (h3 d)
  | xav d op => exact absurd rfl (h4 d op)
  | ifCall d => exact absurd rfl (h2 d)
  | plain f s => cases f <;> simp [o1, o2, o3, o4, NodeData.flavor, PlainFlavor.toFlavor]
  | attr d =>
    have : (NodeData.attr d).flavor ≠ .ifCall := by simp only [NodeData.flavor]; split <;> simp
    simp [o1, o2, o3, o4, this]
  | _ => simp [o1, o2, o3, o4, NodeData.flavor]

/-- The subsection the code computes is the one of the specification. -/
theorem subsection_iff (m : Maps) (mod : Str) (v : OrderConf) (l : Loc) (k : Lss) (hk : k ≠ .unknown) :
    getLocalSubsection m mod v l = k ↔ InSubsection m mod v l k := by
  constructor
  · rintro rfl
    cases ho : outermost l with
    | some c =>
      rw [(C32_subsection m mod v l).1 c ho]
      cases c
      · exact .optional ho
      · exact .boolean ho
      · exact .tunable ho
      · exact .buildOption ho
    | none =>
      by_cases hr : ∃ d, IsRule d l.data
      · obtain ⟨d, hd⟩ := hr
        have := C54_rules m mod v l d hd ho
        rw [this] at hk ⊢
        split at hk
        · rename_i h; rw [if_pos h]; exact .self ho hd h
        · rename_i h
          rw [if_neg h]
          split at hk
          · rename_i h'; rw [if_pos h']; exact .own ho hd h h'
          · exact absurd rfl hk
      by_cases hc : ∃ d, l.data = .ifCall d
      · obtain ⟨d, hd⟩ := hc
        cases hif : m.lookUpIf d.name with
        | some callee => rw [C54_interface_calls m mod v l d callee hd hif ho]; exact .call ho hd hif
        | none =>
          obtain ⟨h1, h2⟩ := subsection_call_unknown m mod v l d hd hif ho
          by_cases h : OwnNames m mod l
          · rw [h1 h]; exact .unknownOwn ho hd hif h
          · rw [h2 h]; exact .unknownOther ho hd hif h
      · exact absurd (subsection_other m mod v l (fun d h => hr ⟨d, h⟩) (fun d h => hc ⟨d, h⟩) ho) hk
  · intro h
    cases h with
    | optional h => exact (C32_subsection m mod v l).1 _ h
    | boolean h => exact (C32_subsection m mod v l).1 _ h
    | tunable h => exact (C32_subsection m mod v l).1 _ h
    | buildOption h => exact (C32_subsection m mod v l).1 _ h
    | self ho hd h => rw [C54_rules m mod v l _ hd ho, if_pos h]
    | own ho hd h h' => rw [C54_rules m mod v l _ hd ho, if_neg h]; exact if_pos h'
    | call ho hd hif => exact C54_interface_calls m mod v l _ _ hd hif ho
    | unknownOwn ho hd hif h => exact (subsection_call_unknown m mod v l _ hd hif ho).1 h
    | unknownOther ho hd hif h => exact (subsection_call_unknown m mod v l _ hd hif ho).2 h

theorem InSubsection.known {m : Maps} {mod : Str} {v : OrderConf} {l : Loc} {k : Lss}
    (h : InSubsection m mod v l k) : k ≠ .unknown := by
  cases h <;> try simp
  unfold callPlace
  repeat' split
  all_goals simp

/-! ## Statistics -/

/-- The entry of a section. -/
def lookSection (n : Str) (secs : List SectionData) : Option SectionData := secs.find? fun s => s.name = n

theorem lookSection_add (n name : Str) (line : Nat) (secs : List SectionData) :
    lookSection n (addSectionInfo name line secs) =
      if n = name then
        match lookSection n secs with
        | none => some ⟨name, 1, line⟩
        | some s => some { s with count := s.count + 1, sum := (s.sum + line) % 2 ^ 32 }
      else lookSection n secs := by
  induction secs with
  | nil =>
    simp only [addSectionInfo, lookSection, List.find?_cons, List.find?_nil]
    by_cases h : n = name
    · simp [h]
    · simp [h, Ne.symm h]
  | cons s ss ih =>
    simp only [addSectionInfo, strcmp_eq_zero]
    by_cases h : s.name = name
    · rw [if_pos h]
      by_cases hn : n = name
      · subst hn; simp [lookSection, h]
      · have : s.name ≠ n := by rw [h]; exact Ne.symm hn
        simp [lookSection, this, hn]
    · rw [if_neg h]
      by_cases hn : s.name = n
      · have : n ≠ name := by rw [← hn]; exact h
        simp [lookSection, hn, this]
      · simp only [lookSection, List.find?_cons, hn, decide_false]
        exact ih

theorem getAvg_look (n : Str) (secs : List SectionData) (h : secs ≠ []) :
    getAvgLineByName n secs = .ok (match lookSection n secs with | some s => s.avg | none => -1) := by
  induction secs with
  | nil => exact absurd rfl h
  | cons s ss ih =>
    unfold getAvgLineByName
    simp only [strcmp_eq_zero]
    by_cases hn : s.name = n
    · simp [lookSection, hn]
    · rw [if_neg hn]
      cases ss with
      | nil => simp [lookSection, hn]
      | cons t ts =>
        dsimp only
        rw [ih (by simp)]
        simp [lookSection, hn]

/-- What the statistics say about a section whose lines, so far, are `lines`. -/
def Counted (secs : List SectionData) (n : Str) (lines : List Nat) : Prop :=
  lookSection n secs = if lines = [] then none else some ⟨n, lines.length, lines.sum % 2 ^ 32⟩

open Classical in
theorem prepareSections_counted (m : Maps) (sec : Section) (hsec : sec.Ordinary) (ls : List Loc)
    (h : ∀ l ∈ ls, ShapedLoc l ∧ l.info.lineno < 2 ^ 32) :
    ∀ (secs : List SectionData) (lines : List Nat), Counted secs sec.title lines →
    ∃ secs', prepareSections m ls secs = .ok (some secs') ∧
      Counted secs' sec.title (lines ++ (ls.filter fun l => InSection m l sec).map (·.info.lineno)) := by
  induction ls with
  | nil => intro secs lines hc; exact ⟨secs, rfl, by simpa using hc⟩
  | cons l ls ih =>
    intro secs lines hc
    obtain ⟨hl, hll⟩ := h l (by simp)
    obtain ⟨t, ht⟩ := section_exists m hl
    have hrest : ∀ k ∈ ls, ShapedLoc k ∧ k.info.lineno < 2 ^ 32 := fun k hk => h k (by simp [hk])
    by_cases he : t = sec
    · subst he
      obtain ⟨secs', h1, h2⟩ := ih hrest (addSectionInfo t.title l.info.lineno secs)
        (lines ++ [l.info.lineno]) (by
          unfold Counted at hc ⊢
          rw [lookSection_add, if_pos rfl, hc]
          by_cases hnil : lines = []
          · subst hnil
            simp [Nat.mod_eq_of_lt hll]
          · simp only [if_neg hnil]
            rw [if_neg (by simp)]
            simp)
      refine ⟨secs', ?_, ?_⟩
      · simp only [prepareSections, section_title ht, Res.bind_ok, h1]
      · simpa [ht] using h2
    · have hnot : ¬InSection m l sec := fun h' => he (section_unique hl ht h')
      obtain ⟨secs', h1, h2⟩ := ih hrest (addSectionInfo t.title l.info.lineno secs) lines (by
        unfold Counted at hc ⊢
        rw [lookSection_add, if_neg (fun e => he (Section.title_inj (ht.ordinary hl) hsec e.symm)), hc])
      refine ⟨secs', ?_, ?_⟩
      · simp only [prepareSections, section_title ht, Res.bind_ok, h1]
      · simpa [hnot] using h2

/-- The average the code looks up is the one of the lines of the section. -/
theorem average_eq (m : Maps) (head : Loc) (h : TeFile head)
    (hline : ∀ l ∈ orderingNodes head, l.info.lineno < 2 ^ 32) {secs : List SectionData}
    (hp : prepareSections m (orderingNodes head) [] = .ok (some secs)) (hne : secs ≠ []) (sec : Section)
    (hsec : sec.Ordinary) :
    getAvgLineByName sec.title secs = .ok (average (sectionLines m head sec)) := by
  obtain ⟨secs', h1, h2⟩ := prepareSections_counted m sec hsec (orderingNodes head)
    (fun l hl => ⟨h.nodes l hl, hline l hl⟩) [] [] (by simp [Counted, lookSection])
  rw [hp] at h1
  simp only [Res.ok.injEq, Option.some.injEq] at h1
  subst h1
  rw [List.nil_append] at h2
  rw [getAvg_look _ _ hne]
  unfold Counted at h2
  rw [h2]
  unfold average
  change Res.ok (match (if sectionLines m head sec = [] then none else _) with
    | some s => SectionData.avg s | none => -1) = _
  split <;> rename_i heq <;> split at heq
  · cases heq
  · rename_i hn
    simp only [Option.some.injEq] at heq
    rw [if_neg hn, ← heq]; rfl
  · rename_i hn; rw [if_pos hn]
  · cases heq

end Selint
