import Verif.Spec.Ordering
import Verif.Lemmas.Basic
/-! # Sections and comparisons: fuel never runs out, shaped trees cause no undefined behaviour -/

namespace Selint

open Spec

theorem Tree.size_pos (t : Tree) : 0 < t.size := by
  cases t; simp [Tree.size]

/-- The fuel for `get_section` of the first child. -/
theorem fuel_firstChild {l c : Loc} (h : l.firstChild? = some c) : c.fuel < l.fuel := by
  unfold Loc.firstChild? at h
  split at h
  · cases h
  · rename_i t ts hc
    cases h
    obtain ⟨⟨i, cs⟩, ls, rs, ups⟩ := l
    simp only [Tree.children_mk] at hc
    subst hc
    simp only [Loc.fuel, Tree.size, Tree.sizeList]
    omega

theorem fuel_next {l n : Loc} (h : l.next? = some n) : n.fuel < l.fuel := by
  unfold Loc.next? at h
  split at h
  · cases h
  · rename_i t ts hc
    cases h
    simp only [Loc.fuel, hc, Tree.sizeList]
    have := Tree.size_pos l.focus
    omega

theorem getSectionF_eq (m : Maps) : ∀ (f1 f2 : Nat) (l : Loc), l.fuel ≤ f1 → l.fuel ≤ f2 →
    getSectionF m f1 l = getSectionF m f2 l := by
  intro f1
  induction f1 with
  | zero =>
    intro f2 l h1
    have : 0 < l.fuel := by have := Tree.size_pos l.focus; simp only [Loc.fuel]; omega
    omega
  | succ f1 ih =>
    intro f2 l h1 h2
    have hp : 0 < l.fuel := by have := Tree.size_pos l.focus; simp only [Loc.fuel]; omega
    cases f2 with
    | zero => omega
    | succ f2 =>
      have h3 : ∀ c, l.firstChild? = some c → getSectionF m f1 c = getSectionF m f2 c := by
        intro c hc
        have := fuel_firstChild hc
        exact ih f2 c (by omega) (by omega)
      have h4 : ∀ c, l.next? = some c → getSectionF m f1 c = getSectionF m f2 c := by
        intro c hc
        have := fuel_next hc
        exact ih f2 c (by omega) (by omega)
      unfold getSectionF
      split <;> try rfl
      all_goals
        first
          | (cases hfc : l.firstChild? with
             | none => rfl
             | some c => exact h3 c hfc)
          | (cases hfc : l.next? with
             | none => rfl
             | some c => exact h4 c hfc)

/-- The fuel never matters: `get_section` of a node in terms of `get_section` of others. -/
theorem getSection_firstChild (m : Maps) (l : Loc) (hl : isConditional l.flavor) :
    getSection m l = match l.firstChild? with
      | some c => getSection m c
      | none => .ok none := by
  have hp : l.fuel = (l.fuel - 1) + 1 := by
    have := Tree.size_pos l.focus; simp only [Loc.fuel]; omega
  have key : ∀ f, getSectionF m (f + 1) l = match l.firstChild? with
      | some c => getSectionF m f c
      | none => .ok none := by
    intro f
    conv => lhs; unfold getSectionF
    have hfl : l.flavor = l.data.flavor := rfl
    rw [hfl] at hl
    revert hl
    generalize l.data = dd
    intro hl
    cases dd with
    | plain f s =>
      cases f <;>
        first
          | (simp [NodeData.flavor, PlainFlavor.toFlavor, isConditional, conditionalOf] at hl; done)
          | rfl
    | attr d =>
      simp only [NodeData.flavor] at hl
      split at hl <;> simp [isConditional, conditionalOf] at hl
    | _ => simp [NodeData.flavor, isConditional, conditionalOf] at hl
  rw [getSection, hp, key]
  split
  · rename_i c hc
    have := fuel_firstChild hc
    exact getSectionF_eq m _ _ _ (by omega) (by omega)
  · rfl

theorem getSection_startBlock (m : Maps) (l : Loc) (hl : l.flavor = .startBlock) :
    getSection m l = match l.next? with
      | some c => getSection m c
      | none => .ok (some secNonOrdered) := by
  have hp : l.fuel = (l.fuel - 1) + 1 := by
    have := Tree.size_pos l.focus; simp only [Loc.fuel]; omega
  have key : ∀ f, getSectionF m (f + 1) l = match l.next? with
      | some c => getSectionF m f c
      | none => .ok (some secNonOrdered) := by
    intro f
    conv => lhs; unfold getSectionF
    have hfl : l.flavor = l.data.flavor := rfl
    rw [hfl] at hl
    revert hl
    generalize l.data = dd
    intro hl
    cases dd with
    | plain f s =>
      cases f <;>
        first
          | (simp [NodeData.flavor, PlainFlavor.toFlavor] at hl; done)
          | rfl
    | attr d =>
      simp only [NodeData.flavor] at hl
      split at hl <;> simp at hl
    | _ => simp [NodeData.flavor] at hl
  rw [getSection, hp, key]
  split
  · rename_i c hc
    have := fuel_next hc
    exact getSectionF_eq m _ _ _ (by omega) (by omega)
  · rfl

/-! ## Shaped locations -/

theorem shapedList_iff (ts : List Tree) : ShapedList ts ↔ ∀ t ∈ ts, Shaped t := by
  induction ts with
  | nil => simp [ShapedList]
  | cons t ts ih => simp [ShapedList, ih]

/-- A tree that can follow another statement. -/
def StmtNode (t : Tree) : Prop := Shaped t ∧ t.info.flavor ≠ .startBlock

/-- A position in a shaped te file, after the file node. -/
structure ShapedLoc (l : Loc) : Prop where
  focus : Shaped l.focus
  rights : ∀ t ∈ l.rights, StmtNode t
  prev : l.flavor ≠ .startBlock → l.flavor ≠ .alias → l.lefts ≠ []
  ups : ∀ f ∈ l.ups, ∀ t ∈ f.rights, StmtNode t

theorem Spec.Shaped.node {t : Tree} (h : Shaped t) : NodeShaped t.info t.children := by
  cases t; exact h.1

theorem Spec.Shaped.children {t : Tree} (h : Shaped t) : ∀ c ∈ t.children, Shaped c := by
  cases t; exact (shapedList_iff _).1 h.2

theorem ShapedLoc.firstChild {l c : Loc} (h : ShapedLoc l) (e : l.firstChild? = some c) :
    ShapedLoc c := by
  unfold Loc.firstChild? at e
  split at e
  · cases e
  · rename_i t ts hc
    cases e
    have hn := h.focus.node
    have hch := h.focus.children
    rw [hc] at hn hch
    have hst : t.info.flavor = if hasAliases l.focus.info.flavor then .alias else .startBlock :=
      hn.1 t rfl
    refine ⟨hch t (by simp), fun u hu => ⟨hch u (by simp [hu]), hn.2.1 u hu⟩, ?_, ?_⟩
    · intro hne hna
      split at hst
      · exact absurd hst hna
      · exact absurd hst hne
    · intro f hf u hu
      rcases List.mem_cons.1 hf with rfl | hf
      · exact h.rights u hu
      · exact h.ups f hf u hu

theorem ShapedLoc.next {l n : Loc} (h : ShapedLoc l) (e : l.next? = some n) :
    ShapedLoc n ∧ n.flavor ≠ .startBlock := by
  unfold Loc.next? at e
  split at e
  · cases e
  · rename_i t ts hc
    cases e
    have hr := h.rights
    rw [hc] at hr
    have ht := hr t (by simp)
    exact ⟨⟨ht.1, fun u hu => hr u (by simp [hu]), by simp, h.ups⟩, ht.2⟩

theorem climb_shaped (t : Tree) (ls rs : List Tree) (ups : List Frame) (n : Loc)
    (hu : ∀ f ∈ ups, ∀ t ∈ f.rights, StmtNode t) (e : Loc.climb t ls rs ups = some n) :
    ShapedLoc n := by
  induction ups generalizing t ls rs with
  | nil => cases e
  | cons f fs ih =>
    unfold Loc.climb at e
    split at e
    · rename_i r rs' hr
      cases e
      have hf := hu f (by simp)
      rw [hr] at hf
      exact ⟨(hf r (by simp)).1, fun u hu' => hf u (by simp [hu']), by simp,
        fun g hg => hu g (by simp [hg])⟩
    · exact ih _ _ _ (fun g hg => hu g (by simp [hg])) e

theorem ShapedLoc.dfsNext {l n : Loc} (h : ShapedLoc l) (e : l.dfsNext = some n) :
    ShapedLoc n := by
  unfold Loc.dfsNext at e
  split at e
  · rename_i c hc; cases e; exact (h.firstChild hc)
  · split at e
    · rename_i c hc; cases e; exact (h.next hc).1
    · exact climb_shaped _ _ _ _ _ h.ups e

theorem ShapedLoc.orderingNext {l n : Loc} (h : ShapedLoc l) (e : orderingNext l = some n) :
    ShapedLoc n := by
  fun_induction Selint.orderingNext l with
  | case1 => cases e
  | case2 l n' hd _ ih => exact ih (h.dfsNext hd) e
  | case3 l n' hd => cases e; exact h.dfsNext hd

theorem ShapedLoc.orderingWalk {l : Loc} (h : ShapedLoc l) : ∀ n ∈ orderingWalk l, ShapedLoc n := by
  fun_induction Selint.orderingWalk l with
  | case1 l _ => simpa using h
  | case2 l n hn ih =>
    intro k hk
    rcases List.mem_cons.1 hk with rfl | hk
    · exact h
    · exact ih (h.orderingNext hn) k hk

theorem Spec.TeFile.first {head : Loc} (h : TeFile head) :
    ∃ c, head.next? = some c ∧ ShapedLoc c ∧ c.flavor ≠ .startBlock := by
  unfold Loc.next?
  have hne := h.nonempty
  have hs := (shapedList_iff _).1 h.shaped
  have hm := h.noMarker
  have ht := h.top
  split
  · rename_i e; exact absurd e hne
  · rename_i r rs e
    rw [e] at hs hm
    refine ⟨_, rfl, ⟨hs r (by simp), fun u hu => ⟨hs u (by simp [hu]), hm u (by simp [hu])⟩,
      by simp, by simp [ht]⟩, hm r (by simp)⟩

theorem Spec.TeFile.nodes {head : Loc} (h : TeFile head) :
    ∀ n ∈ orderingNodes head, ShapedLoc n := by
  obtain ⟨c, hc, hs, _⟩ := h.first
  unfold orderingNodes
  rw [hc]
  exact hs.orderingWalk

/-- The name of a section: one of the two fixed ones, or a name that does not start with an
underscore. -/
def SectionName (s : Str) : Prop := s = secNonOrdered ∨ s = secDeclaration ∨ s.head? ≠ some '_'

/-- In a shaped file every node has a section. -/
theorem ShapedLoc.section_name {l : Loc} (m : Maps) (h : ShapedLoc l) :
    ∃ s, getSection m l = .ok (some s) ∧ SectionName s := by
  generalize hf : l.fuel = f
  induction f using Nat.strongRecOn generalizing l with
  | _ f ih =>
  subst hf
  by_cases hc : isConditional l.flavor
  · rw [getSection_firstChild m l hc]
    have hne : l.focus.children ≠ [] := h.focus.node.2.2.2.1 hc
    cases hfc : l.firstChild? with
    | none =>
      unfold Loc.firstChild? at hfc
      split at hfc
      · rename_i e; exact absurd e hne
      · cases hfc
    | some c => exact ih _ (fuel_firstChild hfc) (h.firstChild hfc) rfl
  · by_cases hsb : l.flavor = .startBlock
    · rw [getSection_startBlock m l hsb]
      cases hn : l.next? with
      | none => exact ⟨_, rfl, .inl rfl⟩
      | some c => exact ih _ (fuel_next hn) (h.next hn).1 rfl
    · have hn := h.focus.node
      have hp : l.fuel = (l.fuel - 1) + 1 := by
        have := Tree.size_pos l.focus; simp only [Loc.fuel]; omega
      obtain ⟨_, _, _, _, hrule, hfl⟩ := hn
      have e1 : l.focus.info.data = l.data := rfl
      have e2 : l.focus.info.flavor = l.data.flavor := rfl
      have e3 : l.flavor = l.data.flavor := rfl
      rw [e1] at hrule
      rw [e2] at hfl
      rw [e3] at hc hsb
      unfold getSection
      rw [hp]
      unfold getSectionF
      have hhead : ∀ ss : List Str, ss ≠ [] ∧ OrdinaryFirst ss →
          ∃ s, headStr ss = .ok (some s) ∧ SectionName s := by
        intro ss hss
        cases ss with
        | nil => exact absurd rfl hss.1
        | cons s _ => exact ⟨s, rfl, .inr (.inr (hss.2 s rfl))⟩
      have hdecl : SectionName (if l.isInRequire then secNonOrdered else secDeclaration) := by
        split
        · exact .inl rfl
        · exact .inr (.inl rfl)
      revert hrule hfl hc hsb
      generalize l.data = dd
      intro hc hsb hrule hfl
      cases dd with
      | av d =>
        dsimp only at hrule ⊢
        repeat' split
        all_goals first | exact ⟨_, rfl, .inl rfl⟩ | exact hhead _ hrule
      | xav d op =>
        dsimp only at hrule ⊢
        repeat' split
        all_goals first | exact ⟨_, rfl, .inl rfl⟩ | exact hhead _ hrule
      | tt d => exact hhead _ hrule
      | ifCall d =>
        dsimp only at hrule ⊢
        repeat' split
        · exact ⟨_, rfl, .inl rfl⟩
        · exact ⟨_, rfl, .inr (.inl rfl)⟩
        · rename_i a as ha
          exact ⟨_, rfl, .inr (.inr (hrule a (by rw [ha]; rfl)))⟩
        · exact ⟨_, rfl, .inl rfl⟩
      | plain f s =>
        cases f <;>
          first
            | exact ⟨_, rfl, .inl rfl⟩
            | exact ⟨_, rfl, hdecl⟩
            | (simp [NodeData.flavor, PlainFlavor.toFlavor] at hfl; done)
            | (simp [NodeData.flavor, PlainFlavor.toFlavor] at hsb; done)
            | (simp [NodeData.flavor, PlainFlavor.toFlavor, isConditional, conditionalOf] at hc; done)
      | fc d => simp [NodeData.flavor] at hfl
      | decl d => exact ⟨_, rfl, hdecl⟩
      | attr d => exact ⟨_, rfl, hdecl⟩
      | _ => exact ⟨_, rfl, .inl rfl⟩

theorem ShapedLoc.section {l : Loc} (m : Maps) (h : ShapedLoc l) :
    ∃ s, getSection m l = .ok (some s) := by
  obtain ⟨s, e, _⟩ := h.section_name m
  exact ⟨s, e⟩

/-- Aliases are in the section of their declaration. -/
theorem section_alias {l : Loc} (m : Maps) (h : l.flavor = .alias) :
    getSection m l = .ok (some (if l.isInRequire then secNonOrdered else secDeclaration)) := by
  have hp : l.fuel = (l.fuel - 1) + 1 := by
    have := Tree.size_pos l.focus; simp only [Loc.fuel]; omega
  unfold getSection
  rw [hp]
  unfold getSectionF
  have e : l.flavor = l.data.flavor := rfl
  rw [e] at h
  revert h
  generalize l.data = dd
  intro h
  cases dd with
  | plain f s => cases f <;> first | rfl | (simp [NodeData.flavor, PlainFlavor.toFlavor] at h; done)
  | attr d =>
    simp only [NodeData.flavor] at h
    split at h <;> simp at h
  | _ => simp [NodeData.flavor] at h

/-- A section that is taken for the declaration section without being it has a name starting
with an underscore. -/
theorem sameSection_declaration {s : Str} (h : isSameSection s secDeclaration = true) :
    s.head? = some '_' := by
  unfold isSameSection strncmpEq at h
  rw [beq_iff_eq] at h
  generalize hn : (if sectionStemLen s > sectionStemLen secDeclaration then sectionStemLen s
    else sectionStemLen secDeclaration) = n at h
  have hpos : 0 < n := by
    have : sectionStemLen secDeclaration = secDeclaration.length := by decide
    have : 0 < secDeclaration.length := by decide
    subst hn
    split <;> omega
  have := congrArg List.head? h
  rw [List.head?_take, List.head?_take, if_neg (by omega), if_neg (by omega)] at this
  rw [this]
  rfl

/-! ## Comparisons -/

theorem size_firstChild_next {l a : Loc} (h : secondChild l = some a) :
    a.focus.size < l.focus.size := by
  unfold secondChild at h
  simp only [Option.bind_eq_some_iff] at h
  obtain ⟨c, hc, hn⟩ := h
  unfold Loc.firstChild? at hc
  split at hc
  · cases hc
  · rename_i t ts hch
    cases hc
    unfold Loc.next? at hn
    split at hn
    · cases hn
    · rename_i u us hr
      cases hn
      simp only at hr
      subst hr
      obtain ⟨⟨i, cs⟩, ls, rs, ups⟩ := l
      simp only [Tree.children_mk] at hch
      subst hch
      simp only [Tree.size, Tree.sizeList]
      omega

theorem compareStep_congr (m : Maps) (secs : List SectionData) (mod : Str) (v : OrderConf)
    (r1 r2 : Loc → Loc → Res Int) (a b : Loc)
    (h : ∀ a' b', secondChild a = some a' → secondChild b = some b' → r1 a' b' = r2 a' b') :
    compareStep m secs mod v r1 a b = compareStep m secs mod v r2 a b := by
  have h1 : compareLocal m mod v r1 a b = compareLocal m mod v r2 a b := by
    unfold compareLocal
    cases ha : secondChild a with
    | none => rfl
    | some a' =>
      cases hb : secondChild b with
      | none => rfl
      | some b' => simp only [h a' b' ha hb]
  unfold compareStep
  simp only [h1]

theorem compareNodesF_eq (m : Maps) (secs : List SectionData) (mod : Str) (v : OrderConf) :
    ∀ (f1 f2 : Nat) (a b : Loc), (a.focus.size ≤ f1 ∨ b.focus.size ≤ f1) →
      (a.focus.size ≤ f2 ∨ b.focus.size ≤ f2) →
      compareNodesF m secs mod v f1 a b = compareNodesF m secs mod v f2 a b := by
  intro f1
  induction f1 with
  | zero =>
    intro f2 a b h1
    have := Tree.size_pos a.focus
    have := Tree.size_pos b.focus
    omega
  | succ f1 ih =>
    intro f2 a b h1 h2
    have := Tree.size_pos a.focus
    have := Tree.size_pos b.focus
    cases f2 with
    | zero => omega
    | succ f2 =>
      unfold compareNodesF
      apply compareStep_congr
      intro a' b' ha hb
      have := size_firstChild_next ha
      have := size_firstChild_next hb
      exact ih f2 a' b' (by omega) (by omega)

/-- The comparison without fuel. -/
theorem compareNodes_eq (m : Maps) (secs : List SectionData) (mod : Str) (v : OrderConf)
    (a b : Loc) : compareNodes m secs mod v a b =
      compareStep m secs mod v (compareNodes m secs mod v) a b := by
  have hp : a.focus.size = (a.focus.size - 1) + 1 := by have := Tree.size_pos a.focus; omega
  rw [compareNodes, hp, compareNodesF]
  apply compareStep_congr
  intro a' b' ha hb
  have := size_firstChild_next ha
  exact compareNodesF_eq m secs mod v _ _ a' b' (by omega) (by omega)

theorem getAvg_ok (name : Str) (secs : List SectionData) (h : secs ≠ []) :
    ∃ r, getAvgLineByName name secs = .ok r := by
  induction secs with
  | nil => exact absurd rfl h
  | cons s ss ih =>
    unfold getAvgLineByName
    split
    · exact ⟨_, rfl⟩
    · cases ss with
      | nil => exact ⟨_, rfl⟩
      | cons s' ss' => exact ih (by simp)

theorem compareSections_ok (secs : List SectionData) (s1 s2 : Str) (h : secs ≠ []) :
    ∃ r, compareSections secs s1 s2 = .ok r ∧ (r = orderSection ∨ r = -orderSection) := by
  obtain ⟨a1, e1⟩ := getAvg_ok s1 secs h
  obtain ⟨a2, e2⟩ := getAvg_ok s2 secs h
  unfold compareSections
  simp only [e1, e2, Res.bind_ok, Res.pure_eq]
  repeat' split
  all_goals simp

theorem prevIsStartBlock_ok {l : Loc} (h : l.lefts ≠ []) : ∃ r, prevIsStartBlock l = .ok r := by
  unfold prevIsStartBlock Loc.prev?
  cases hl : l.lefts with
  | nil => exact absurd hl h
  | cons p ps => exact ⟨_, rfl⟩

theorem alphabeticalGuard_ok (l1 l2 : Lss) {a b : Loc} (ha : a.lefts ≠ []) (hb : b.lefts ≠ []) :
    ∃ r, alphabeticalGuard l1 l2 a b = .ok r := by
  obtain ⟨ra, ea⟩ := prevIsStartBlock_ok ha
  obtain ⟨rb, eb⟩ := prevIsStartBlock_ok hb
  unfold alphabeticalGuard
  simp only [ea, eb, Res.bind_ok, Res.pure_eq]
  repeat' split
  all_goals exact ⟨_, rfl⟩

theorem ShapedLoc.secondChild {l a : Loc} (h : ShapedLoc l) (e : secondChild l = some a) :
    ShapedLoc a ∧ a.flavor ≠ .startBlock := by
  unfold Selint.secondChild at e
  simp only [Option.bind_eq_some_iff] at e
  obtain ⟨c, hc, hn⟩ := e
  exact (h.firstChild hc).next hn

/-- The results of the comparison other than the error value. -/
def orderReasons : List Int := [orderEqual, orderSection, -orderSection, orderDeclSubsection,
  -orderDeclSubsection, orderLocalSubsection, -orderLocalSubsection, orderAlphabetical,
  -orderAlphabetical]

/-- In a shaped file the comparison of two statements has no undefined behaviour and no
error. -/
theorem compareNodes_range (m : Maps) (secs : List SectionData) (mod : Str) (v : OrderConf)
    (hsecs : secs ≠ []) (a b : Loc) (ha : ShapedLoc a) (hb : ShapedLoc b)
    (ha' : a.flavor ≠ .startBlock) (hb' : b.flavor ≠ .startBlock) :
    ∃ r, compareNodes m secs mod v a b = .ok r ∧ r ∈ orderReasons := by
  generalize hf : a.focus.size = f
  induction f using Nat.strongRecOn generalizing a b with
  | _ f ih =>
  subst hf
  rw [compareNodes_eq]
  obtain ⟨s1, e1, n1⟩ := ha.section_name m
  obtain ⟨s2, e2⟩ := hb.section m
  unfold compareStep
  simp only [e1, e2, Res.bind_ok]
  split
  · exact ⟨_, rfl, by decide⟩
  · rename_i hno
    split
    · obtain ⟨r, hr, hr'⟩ := compareSections_ok secs s1 s2 hsecs
      refine ⟨r, hr, ?_⟩
      rcases hr' with rfl | rfl <;> decide
    · rename_i hsame
      split
      · refine ⟨_, rfl, ?_⟩
        unfold compareDeclarations
        split
        · split
          · simp only [checkOrdering]
            repeat' split
            all_goals decide
          · decide
        · decide
      · rename_i hnd
        simp only [strcmp_eq_zero, not_or] at hno hnd
        have hsame : isSameSection s1 s2 = true := by simpa using hsame
        have pa : a.lefts ≠ [] := by
          refine ha.prev ha' fun hal => ?_
          rw [section_alias m hal] at e1
          split at e1
          · cases e1; exact hno.1 rfl
          · cases e1; exact hnd rfl
        have pb : b.lefts ≠ [] := by
          refine hb.prev hb' fun hal => ?_
          rw [section_alias m hal] at e2
          split at e2
          · cases e2; exact hno.2 rfl
          · cases e2
            rcases n1 with h | h | h
            · exact hno.1 h
            · exact hnd h
            · exact h (sameSection_declaration hsame)
        unfold compareLocal
        dsimp only
        split
        · exact ⟨_, rfl, by decide⟩
        · have hco : ∀ r, (if getLocalSubsection m mod v a ≠ getLocalSubsection m mod v b then
              checkOrdering (getLocalSubsection m mod v a) (getLocalSubsection m mod v b)
                orderLocalSubsection (lssOrder v) else none) = some r → r ∈ orderReasons := by
            intro r hr
            split at hr
            · generalize lssOrder v = ls at hr
              induction ls with
              | nil => simp [checkOrdering] at hr
              | cons c cs ihl =>
                simp only [checkOrdering] at hr
                split at hr
                · cases hr; decide
                · split at hr
                  · cases hr; decide
                  · exact ihl hr
            · cases hr
          split
          · rename_i r hr
            exact ⟨r, rfl, hco r hr⟩
          · split
            · obtain ⟨g, hg⟩ := alphabeticalGuard_ok (getLocalSubsection m mod v a)
                (getLocalSubsection m mod v b) pa pb
              rw [hg, Res.bind_ok]
              split
              · rename_i r hr
                refine ⟨r, rfl, ?_⟩
                split at hr
                · unfold alphabeticalReason at hr
                  split at hr
                  · split at hr
                    · cases hr; decide
                    · split at hr
                      · cases hr; decide
                      · cases hr
                  · cases hr
                · cases hr
              · split
                · split
                  · rename_i a' b' hsa hsb
                    have h1 := ha.secondChild hsa
                    have h2 := hb.secondChild hsb
                    exact ih _ (size_firstChild_next hsa) a' b' h1.1 h2.1 h1.2 h2.2 rfl
                  · exact ⟨_, rfl, by decide⟩
                · exact ⟨_, rfl, by decide⟩
            · exact ⟨_, rfl, by decide⟩

theorem compareNodes_ok (m : Maps) (secs : List SectionData) (mod : Str) (v : OrderConf)
    (hsecs : secs ≠ []) (a b : Loc) (ha : ShapedLoc a) (hb : ShapedLoc b)
    (ha' : a.flavor ≠ .startBlock) (hb' : b.flavor ≠ .startBlock) :
    ∃ r, compareNodes m secs mod v a b = .ok r ∧ r ≠ orderingError := by
  obtain ⟨r, h1, h2⟩ := compareNodes_range m secs mod v hsecs a b ha hb ha' hb'
  refine ⟨r, h1, ?_⟩
  rintro rfl
  exact absurd h2 (by decide)

end Selint
