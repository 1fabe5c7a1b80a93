import Verif.Lemmas.Sections
import Verif.Lemmas.Checks
import Verif.Props.OrderingReport
/-!
# C83: what C-001 demands of two lines, in full
-/

namespace Selint
open Spec

theorem ordinary_ne {s : Str} (h : s.head? ≠ some '_') :
    s ≠ secNonOrdered ∧ s ≠ secDeclaration ∧ char0 s ≠ '_' := by
  refine ⟨?_, ?_, ?_⟩
  · rintro rfl; exact h rfl
  · rintro rfl; exact h rfl
  · intro hc
    cases s with
    | nil => exact absurd hc (by decide)
    | cons c cs => exact h (by simp only [char0, List.headD_cons] at hc; rw [hc]; rfl)

theorem strcmp_not_lt {s t : Str} (h : s ≠ t) : ¬strcmp s t < 0 ↔ t < s := by
  rw [← strcmp_lt_iff, strcmp_antisymm t s]
  have : strcmp s t ≠ 0 := fun e => h (strcmp_eq_zero.1 e)
  omega

theorem checkOrdering_iff (v : OrderConf) (x y : Lss) (h : x ≠ y) :
    (checkOrdering x y orderLocalSubsection (lssOrder v) = some (-3) ∧ place v y < place v x) ∨
    (checkOrdering x y orderLocalSubsection (lssOrder v) = some 3 ∧ place v x < place v y) ∨
    (checkOrdering x y orderLocalSubsection (lssOrder v) = none ∧ place v x = place v y) := by
  cases v <;> cases x <;> cases y <;> first | exact absurd rfl h | decide

section
variable {m : Maps} {mod : Str} {v : OrderConf} {secs : List SectionData} {avg : Str → Rat}

/-- The averages the code looks up. -/
def Averages (secs : List SectionData) (avg : Str → Rat) : Prop :=
  ∀ s : Str, s.head? ≠ some '_' → getAvgLineByName s secs = .ok (avg s)

/-- Lines of different types. -/
theorem compare_types (havg : Averages secs avg) {s t : Str} (hs : s.head? ≠ some '_')
    (ht : t.head? ≠ some '_') (hne : s ≠ t) :
    compareSections secs s t = .ok (if avg t < avg s ∧ t < s then -1 else 1) := by
  obtain ⟨_, s2, s3⟩ := ordinary_ne hs
  obtain ⟨_, t2, t3⟩ := ordinary_ne ht
  unfold compareSections
  simp only [ne_eq, strcmp_eq_zero, s2, t2, not_false_eq_true, if_true, if_false, havg s hs, havg t ht,
    Res.bind_ok, Res.pure_eq, s3, t3, decide_true, Bool.true_and, gt_iff_lt, orderSection]
  have := strcmp_not_lt hne
  by_cases h1 : avg t < avg s <;> by_cases h2 : strcmp s t < 0 <;> simp [h1, h2, ← this]

theorem of_flavor {l : Loc} {s : Str} (h : InSection m l (.of s)) : l.flavor ≠ .alias := by
  have e : l.flavor = l.data.flavor := rfl
  rw [e]
  cases h with
  | rule h _ _ => rcases h with h | ⟨op, h⟩ <;> rw [h] <;> simp [NodeData.flavor]
  | transition h _ => rw [h]; simp [NodeData.flavor]
  | call h _ _ _ => rw [h]; simp [NodeData.flavor]
  | block h _ _ => rw [← e]; intro hc; rw [hc] at h; simp [isConditional, conditionalOf] at h
  | start h _ _ => rw [← e, h]; simp

theorem prev_ok {l : Loc} {s : Str} (hl : ShapedLoc l) (hb : l.flavor ≠ .startBlock)
    (h : InSection m l (.of s)) : ∃ r, prevIsStartBlock l = .ok r ∧ (r = true ↔ FirstInBlock l) := by
  have hne := hl.prev hb (of_flavor h)
  unfold prevIsStartBlock FirstInBlock
  cases hp : l.prev? with
  | none =>
    unfold Loc.prev? at hp
    split at hp
    · rename_i e; exact absurd e hne
    · cases hp
  | some p => exact ⟨_, rfl, by simp⟩

theorem call_flavor {l : Loc} : l.flavor = .ifCall ↔ ∃ d, l.data = .ifCall d := by
  have e : l.flavor = l.data.flavor := rfl
  rw [e]
  generalize l.data = dd
  cases dd with
  | plain f s => cases f <;> simp [NodeData.flavor, PlainFlavor.toFlavor]
  | attr d => simp only [NodeData.flavor]; split <;> simp
  | _ => simp [NodeData.flavor]

theorem guard_ok {a b : Loc} {s t : Str} (k : Lss) (ha : ShapedLoc a) (hb : ShapedLoc b)
    (ha' : a.flavor ≠ .startBlock) (hb' : b.flavor ≠ .startBlock) (hs : InSection m a (.of s))
    (ht : InSection m b (.of t)) :
    ∃ g, alphabeticalGuard k k a b = .ok g ∧ (g = true ↔ k ∉ [.buildOption, .boolean, .tunable] ∧
      (k = .optional → FirstInBlock a ∧ FirstInBlock b) ∧ (∃ d, a.data = .ifCall d) ∧
      ∃ e, b.data = .ifCall e) := by
  unfold alphabeticalGuard
  rw [← call_flavor, ← call_flavor]
  by_cases h1 : k = .buildOption ∨ k = .boolean ∨ k = .tunable
  · rw [if_pos h1]
    refine ⟨false, rfl, ?_⟩
    simp only [Bool.false_eq_true, false_iff]
    rintro ⟨h, _⟩
    simp only [List.mem_cons, List.not_mem_nil, or_false] at h
    exact h h1
  · rw [if_neg h1]
    have h1' : k ∉ [Lss.buildOption, .boolean, .tunable] := by simpa using h1
    by_cases h2 : k = .optional
    · obtain ⟨r, hr, hr'⟩ := prev_ok ha ha' hs
      obtain ⟨q, hq, hq'⟩ := prev_ok hb hb' ht
      subst h2
      simp only [ne_eq, not_true_eq_false, if_false, if_true, hr, hq, Res.bind_ok]
      cases r with
      | true =>
        cases q with
        | true => exact ⟨_, rfl, by simp [← hr', ← hq']⟩
        | false => exact ⟨_, rfl, by simp [← hr', ← hq']⟩
      | false => exact ⟨_, rfl, by simp [← hr']⟩
    · simp only [ne_eq, h2, not_false_eq_true, if_true, Res.pure_eq, Res.bind_ok]
      exact ⟨_, rfl, by simp only [h1', not_false_eq_true, true_and]; simp⟩

theorem reason_calls {a b : Loc} {d e : IfCallData} (ha : a.data = .ifCall d) (hb : b.data = .ifCall e) :
    alphabeticalReason m a b = match m.lookUpIf d.name, m.lookUpIf e.name with
      | some x, some y => if x < y then some 4 else if y < x then some (-4) else none
      | _, _ => none := by
  unfold alphabeticalReason calledModule
  rw [ha, hb]
  dsimp only
  cases m.lookUpIf d.name with
  | none => rfl
  | some x =>
    cases m.lookUpIf e.name with
    | none => rfl
    | some y =>
      have h : strcmp x y > 0 ↔ y < x := by
        rw [← strcmp_lt_iff, strcmp_antisymm y x]; omega
      simp only [strcmp_lt_iff, h, orderAlphabetical]

theorem subsection_range (l : Loc) : (v = .ref → getLocalSubsection m mod v l ≠ .related) ∧
    (v = .light → getLocalSubsection m mod v l ≠ .kernel ∧ getLocalSubsection m mod v l ≠ .system) := by
  have key : ∀ k, k ≠ .unknown → getLocalSubsection m mod v l = k → (v = .ref → k ≠ .related) ∧
      (v = .light → k ≠ .kernel ∧ k ≠ .system) := by
    intro k hk h
    have := (subsection_iff m mod v l k hk).1 h
    cases this with
    | call =>
      unfold callPlace
      repeat' split
      all_goals simp_all
    | _ => simp
  refine ⟨fun hv h => (key _ (by simp) h).1 hv rfl, fun hv => ⟨fun h => ((key _ (by simp) h).2 hv).1 rfl,
    fun h => ((key _ (by simp) h).2 hv).2 rfl⟩⟩

/-- Apart from the lax rules, different subsections have different places. -/
theorem same_place {a b : Loc} (hv : v ≠ .lax)
    (hu : ¬(getLocalSubsection m mod v a = .unknown ∨ getLocalSubsection m mod v b = .unknown))
    (hp : place v (getLocalSubsection m mod v a) = place v (getLocalSubsection m mod v b)) :
    getLocalSubsection m mod v a = getLocalSubsection m mod v b := by
  have h1 := subsection_range (m := m) (mod := mod) (v := v) a
  have h2 := subsection_range (m := m) (mod := mod) (v := v) b
  revert h1 h2 hu hp
  generalize getLocalSubsection m mod v a = x
  generalize getLocalSubsection m mod v b = y
  intro hu hp h1 h2
  cases v with
  | lax => exact absurd rfl hv
  | ref =>
    have := h1.1 rfl; have := h2.1 rfl
    revert hp hu
    cases x <;> cases y <;> simp_all [place]
  | light =>
    have := h1.2 rfl; have := h2.2 rfl
    revert hp hu
    cases x <;> cases y <;> simp_all [place]

open Classical in
/-- Lines of the same type. -/
theorem compare_local {rec : Loc → Loc → Res Int} {a b : Loc} {s t : Str} (ha : ShapedLoc a) (hb : ShapedLoc b)
    (ha' : a.flavor ≠ .startBlock) (hb' : b.flavor ≠ .startBlock) (hs : InSection m a (.of s))
    (ht : InSection m b (.of t)) {x y : Lss} (hx : getLocalSubsection m mod v a = x)
    (hy : getLocalSubsection m mod v b = y) :
    compareLocal m mod v rec a b =
      if x = .unknown ∨ y = .unknown then .ok 0
      else if place v y < place v x then .ok (-3)
      else if place v x < place v y then .ok 3
      else if v = .lax then .ok 0
      else if ∃ p q, ByModule m v x a b p q ∧ q < p then .ok (-4)
      else if ∃ p q, ByModule m v x a b p q ∧ p < q then .ok 4
      else if x = .optional then
        match secondChild a, secondChild b with
        | some a', some b' => rec a' b'
        | _, _ => .ok 0
      else .ok 0 := by
  unfold compareLocal
  rw [hx, hy]
  dsimp only
  by_cases hu : x = .unknown ∨ y = .unknown
  · rw [if_pos hu, if_pos hu]; rfl
  rw [if_neg hu, if_neg hu]
  by_cases hlt : place v y < place v x
  · rw [if_pos hlt]
    have hne : x ≠ y := by rintro rfl; omega
    rcases checkOrdering_iff v x y hne with ⟨h, _⟩ | ⟨_, h⟩ | ⟨_, h⟩
    · simp only [ne_eq, hne, not_false_eq_true, if_true, h]; rfl
    · omega
    · omega
  rw [if_neg hlt]
  by_cases hgt : place v x < place v y
  · rw [if_pos hgt]
    have hne : x ≠ y := by rintro rfl; omega
    rcases checkOrdering_iff v x y hne with ⟨_, h⟩ | ⟨h, _⟩ | ⟨_, h⟩
    · omega
    · simp only [ne_eq, hne, not_false_eq_true, if_true, h]; rfl
    · omega
  rw [if_neg hgt]
  have hnone : (if x ≠ y then checkOrdering x y orderLocalSubsection (lssOrder v) else none) = none := by
    split
    · rename_i hne
      rcases checkOrdering_iff v x y hne with ⟨_, h⟩ | ⟨_, h⟩ | ⟨h, _⟩
      · omega
      · omega
      · exact h
    · rfl
  rw [hnone]
  dsimp only
  by_cases hlax : v = .lax
  · subst hlax
    simp [orderEqual]
  rw [if_neg hlax]
  have hv : v = .ref ∨ v = .light := by cases v <;> simp_all
  rw [if_pos hv]
  have hxy : x = y := by
    rw [← hx, ← hy]
    refine same_place hlax ?_ ?_
    · rw [hx, hy]; exact hu
    · rw [hx, hy]; omega
  subst hxy
  obtain ⟨g, hg, hg'⟩ := guard_ok x ha hb ha' hb' hs ht
  rw [hg, Res.bind_ok]
  have hby : ∀ p q, ByModule m v x a b p q ↔ g = true ∧ ∃ d e, a.data = .ifCall d ∧ b.data = .ifCall e ∧
      m.lookUpIf d.name = some p ∧ m.lookUpIf e.name = some q := by
    intro p q
    rw [hg', ByModule]
    constructor
    · rintro ⟨_, h1, h2, d, e, h3, h4, h5, h6⟩
      exact ⟨⟨h1, h2, ⟨d, h3⟩, e, h4⟩, d, e, h3, h4, h5, h6⟩
    · rintro ⟨⟨h1, h2, _⟩, h3⟩
      exact ⟨hlax, h1, h2, h3⟩
  cases g with
  | false =>
    have h1 : ¬∃ p q, ByModule m v x a b p q ∧ q < p := by
      rintro ⟨p, q, h, _⟩; exact absurd ((hby p q).1 h).1 (by simp)
    have h2 : ¬∃ p q, ByModule m v x a b p q ∧ p < q := by
      rintro ⟨p, q, h, _⟩; exact absurd ((hby p q).1 h).1 (by simp)
    rw [if_neg h1, if_neg h2]
    simp only [Bool.false_eq_true, if_false, and_self, orderEqual]
    rfl
  | true =>
    obtain ⟨-, -, ⟨d, hd⟩, e, he⟩ := hg'.1 rfl
    simp only [reason_calls hd he, if_true, and_self, orderEqual]
    have hby' : ∀ p q, ByModule m v x a b p q ↔ m.lookUpIf d.name = some p ∧ m.lookUpIf e.name = some q := by
      intro p q
      rw [hby]
      constructor
      · rintro ⟨_, d', e', h1, h2, h3⟩
        rw [hd] at h1; rw [he] at h2
        cases h1; cases h2
        exact h3
      · intro h; exact ⟨rfl, d, e, hd, he, h⟩
    simp only [hby']
    cases h1 : m.lookUpIf d.name with
    | none => simp only [reduceCtorEq, false_and, exists_false, if_false]; rfl
    | some p =>
      cases h2 : m.lookUpIf e.name with
      | none => simp only [reduceCtorEq, false_and, and_false, exists_false, if_false]; rfl
      | some q =>
        have e1 : (∃ p' q', ((some p = some p' ∧ some q = some q') ∧ q' < p')) ↔ q < p := by
          constructor
          · rintro ⟨p', q', ⟨h1, h2⟩, h⟩; cases h1; cases h2; exact h
          · intro h; exact ⟨p, q, ⟨rfl, rfl⟩, h⟩
        have e2 : (∃ p' q', ((some p = some p' ∧ some q = some q') ∧ p' < q')) ↔ p < q := by
          constructor
          · rintro ⟨p', q', ⟨h1, h2⟩, h⟩; cases h1; cases h2; exact h
          · intro h; exact ⟨p, q, ⟨rfl, rfl⟩, h⟩
        simp only [e1, e2]
        by_cases hpq : p < q
        · have : ¬q < p := fun h => List.lt_asymm hpq h
          simp only [hpq, this, if_true, if_false]; rfl
        · by_cases hqp : q < p
          · simp only [hpq, hqp, if_true, if_false]; rfl
          · simp only [hpq, hqp, if_false]; rfl

/-- Lines of two sections with a name. -/
theorem compare_of (havg : Averages secs avg) {a b : Loc} {s t : Str} (ha : ShapedLoc a) (hb : ShapedLoc b)
    (hs : InSection m a (.of s)) (ht : InSection m b (.of t)) :
    (¬SameName s t → compareNodes m secs mod v a b = .ok (if avg t < avg s ∧ t < s then -1 else 1)) ∧
    (SameName s t → compareNodes m secs mod v a b = compareLocal m mod v (compareNodes m secs mod v) a b) := by
  have os : s.head? ≠ some '_' := hs.ordinary ha
  have ot : t.head? ≠ some '_' := ht.ordinary hb
  rw [compareNodes_of_sections secs mod v (section_title hs) (section_title ht) (ordinary_ne os).1
    (ordinary_ne ot).1]
  constructor
  · intro hn
    have : isSameSection s t = false := by rw [← Bool.not_eq_true, sameSection_iff]; exact hn
    simp only [Section.title, this, Bool.not_false, if_true]
    refine compare_types havg os ot ?_
    rintro rfl
    exact hn ⟨by rw [(stem_take s).1]; exact List.take_prefix _ _, by rw [(stem_take s).1]; exact List.take_prefix _ _⟩
  · intro hn
    simp only [Section.title, (sameSection_iff s t).2 hn, Bool.not_true, Bool.false_eq_true, if_false,
      (ordinary_ne os).2.1]

theorem compare_anywhere {a b : Loc} {s t : Section} (hs : InSection m a s) (ht : InSection m b t)
    (h : s = .anywhere ∨ t = .anywhere) : compareNodes m secs mod v a b = .ok 0 := by
  rw [compareNodes_eq]
  unfold compareStep
  simp only [section_title hs, section_title ht, Res.bind_ok, strcmp_eq_zero]
  rw [if_pos]
  · rfl
  · rcases h with rfl | rfl
    · exact .inl rfl
    · exact .inr rfl

theorem compare_decl_of {a b : Loc} {t : Str} (hb : ShapedLoc b)
    (hs : InSection m a .declarations) (ht : InSection m b (.of t)) :
    compareNodes m secs mod v a b = .ok 1 ∧ compareNodes m secs mod v b a = .ok (-1) := by
  have ot : t.head? ≠ some '_' := ht.ordinary hb
  refine C54_declarations_first m secs mod v a b t (section_title hs) (section_title ht) (ordinary_ne ot).1 ?_
  rw [← Bool.not_eq_true, isSameSection_symm]
  exact fun h => ot (sameSection_declaration h)

theorem compare_decls {a b : Loc} (hs : InSection m a .declarations) (ht : InSection m b .declarations) :
    compareNodes m secs mod v a b = .ok (compareDeclarations a b) := by
  rw [compareNodes_of_sections secs mod v (section_title hs) (section_title ht) (by decide) (by decide)]
  have : isSameSection secDeclaration secDeclaration = true := by decide
  simp only [Section.title]
  exact (if_neg (by decide)).trans (if_pos rfl)

/-- What the code answers when a line must not stand before another. -/
theorem wrong_code {r : Reason} {a b : Loc} (havg : Averages secs avg)
    (h : WrongBefore m mod v avg r a b) :
    ShapedLoc a → ShapedLoc b → a.flavor ≠ .startBlock → b.flavor ≠ .startBlock →
      compareNodes m secs mod v a b = .ok (-r.code) := by
  induction h with
  | declarations hs ht => intro ha _ _ _; exact (compare_decl_of ha ht hs).2
  | «section» hs ht hn h1 h2 =>
    intro ha hb _ _
    rw [(compare_of havg ha hb hs ht).1 hn, if_pos ⟨h1, h2⟩]; rfl
  | bool hs ht hd he h1 h2 =>
    intro _ _ _ _
    rw [compare_decls hs ht]
    simp [compareDeclarations, hd, he, h2, h1, checkOrdering, Reason.code, orderDeclSubsection]
  | «attribute» hs ht hd he h1 h2 h3 =>
    intro _ _ _ _
    rw [compare_decls hs ht]
    simp [compareDeclarations, hd, he, h3, h1, h2, checkOrdering, Reason.code, orderDeclSubsection]
  | «subsection» hs ht hn hx hy hlt =>
    intro ha hb ha' hb'
    have kx := InSubsection.known hx
    have ky := InSubsection.known hy
    rw [(compare_of havg ha hb hs ht).2 hn, compare_local ha hb ha' hb' hs ht
      ((subsection_iff _ _ _ _ _ kx).2 hx) ((subsection_iff _ _ _ _ _ ky).2 hy),
      if_neg (by rintro (h | h); exact kx h; exact ky h), if_pos hlt]
    rfl
  | alphabetical hs ht hn hx hy hby hlt =>
    intro ha hb ha' hb'
    have kx := InSubsection.known hx
    rw [(compare_of havg ha hb hs ht).2 hn, compare_local ha hb ha' hb' hs ht
      ((subsection_iff _ _ _ _ _ kx).2 hx) ((subsection_iff _ _ _ _ _ kx).2 hy),
      if_neg (by rintro (h | h) <;> exact kx h), if_neg (by omega), if_neg (by omega), if_neg hby.1,
      if_pos ⟨_, _, hby, hlt⟩]
    rfl
  | @blocks a b s t a₁ b₁ a₂ b₂ r hs ht hn hv hx hy hby h1 h2 h3 h4 _ ih =>
    intro ha hb ha' hb'
    have hneq : ∀ {p q : Str}, ByModule m v .optional a b p q → ¬q < p ∧ ¬p < q := by
      intro p q h
      rw [hby p q h]
      exact ⟨List.lt_irrefl _, List.lt_irrefl _⟩
    rw [(compare_of havg ha hb hs ht).2 hn, compare_local ha hb ha' hb' hs ht
      ((subsection_iff _ _ _ _ _ (by simp)).2 hx) ((subsection_iff _ _ _ _ _ (by simp)).2 hy),
      if_neg (by simp), if_neg (by omega), if_neg (by omega), if_neg hv,
      if_neg (by rintro ⟨p, q, h, h'⟩; exact (hneq h).1 h'),
      if_neg (by rintro ⟨p, q, h, h'⟩; exact (hneq h).2 h'), if_pos rfl]
    simp only [secondChild, h1, h2, h3, h4, Option.bind_some]
    have na := (ha.firstChild h1).next h2
    have nb := (hb.firstChild h3).next h4
    exact ih na.1 nb.1 na.2 nb.2

theorem Spec.Reason.code_inj {r r' : Reason} (h : r.code = r'.code) : r = r' := by
  cases r <;> cases r' <;> first | rfl | (exact absurd h (by decide))

/-- When the code answers that a line must not stand before another, it must not. -/
theorem code_wrong (havg : Averages secs avg) : ∀ (r : Reason) (a b : Loc),
    ShapedLoc a → ShapedLoc b → a.flavor ≠ .startBlock → b.flavor ≠ .startBlock →
      compareNodes m secs mod v a b = .ok (-r.code) → WrongBefore m mod v avg r a b := by
  intro r a b
  generalize hsz : a.focus.size = n
  induction n using Nat.strongRecOn generalizing a b with
  | _ n ih =>
  subst hsz
  intro ha hb ha' hb' h
  obtain ⟨s, hs⟩ := section_exists m ha
  obtain ⟨t, ht⟩ := section_exists m hb
  by_cases hany : s = .anywhere ∨ t = .anywhere
  · rw [compare_anywhere hs ht hany] at h
    exact absurd h (by cases r <;> decide)
  cases s with
  | anywhere => exact absurd (.inl rfl) hany
  | declarations =>
    cases t with
    | anywhere => exact absurd (.inr rfl) hany
    | declarations =>
      rw [compare_decls hs ht] at h
      unfold compareDeclarations at h
      split at h
      · rename_i d e hd he
        split at h
        · rename_i hne
          simp only [checkOrdering] at h
          split at h
          · exact absurd h (by cases r <;> decide)
          rename_i h1
          split at h
          · rename_i h2
            cases r <;> first | exact .bool hs ht hd he h1 h2 | exact absurd h (by decide)
          split at h
          · exact absurd h (by cases r <;> decide)
          rename_i h3
          split at h
          · rename_i h4
            cases r <;> first | exact .attribute hs ht hd he h1 h3 h4 | exact absurd h (by decide)
          · exact absurd h (by cases r <;> decide)
        · exact absurd h (by cases r <;> decide)
      · exact absurd h (by cases r <;> decide)
    | of t =>
      rw [(compare_decl_of hb hs ht).1] at h
      exact absurd h (by cases r <;> decide)
  | of s =>
    cases t with
    | anywhere => exact absurd (.inr rfl) hany
    | declarations =>
      rw [(compare_decl_of ha ht hs).2] at h
      cases r <;> first | exact .declarations hs ht | exact absurd h (by decide)
    | of t =>
      by_cases hn : SameName s t
      · rw [(compare_of havg ha hb hs ht).2 hn, compare_local ha hb ha' hb' hs ht rfl rfl] at h
        split at h
        · exact absurd h (by cases r <;> decide)
        rename_i hu
        have hx := (subsection_iff m mod v a _ (fun e => hu (.inl e))).1 rfl
        have hy := (subsection_iff m mod v b _ (fun e => hu (.inr e))).1 rfl
        split at h
        · rename_i hlt
          cases r <;> first | exact .subsection hs ht hn hx hy hlt | exact absurd h (by decide)
        rename_i h1
        split at h
        · exact absurd h (by cases r <;> decide)
        rename_i h2
        split at h
        · exact absurd h (by cases r <;> decide)
        rename_i hlax
        have hxy : getLocalSubsection m mod v a = getLocalSubsection m mod v b :=
          same_place hlax hu (by omega)
        rw [← hxy] at hy
        split at h
        · rename_i hby
          obtain ⟨p, q, hby, hlt⟩ := hby
          cases r <;> first | exact .alphabetical hs ht hn hx hy hby hlt | exact absurd h (by decide)
        rename_i h3
        split at h
        · exact absurd h (by cases r <;> decide)
        rename_i h4
        split at h
        · rename_i ho
          rw [ho] at hx hy h3 h4
          split at h
          · rename_i a₂ b₂ ea eb
            have hsz := size_firstChild_next ea
            simp only [secondChild, Option.bind_eq_some_iff] at ea eb
            obtain ⟨a₁, e1, e2⟩ := ea
            obtain ⟨b₁, e3, e4⟩ := eb
            have na := (ha.firstChild e1).next e2
            have nb := (hb.firstChild e3).next e4
            refine .blocks hs ht hn hlax hx hy ?_ e1 e2 e3 e4
              (ih _ hsz a₂ b₂ rfl na.1 nb.1 na.2 nb.2 h)
            intro p q hpq
            exact List.le_antisymm (fun hlt => h3 ⟨p, q, hpq, hlt⟩) (fun hlt => h4 ⟨p, q, hpq, hlt⟩)
          · exact absurd h (by cases r <;> decide)
        · exact absurd h (by cases r <;> decide)
      · rw [(compare_of havg ha hb hs ht).1 hn] at h
        split at h
        · rename_i hc
          cases r <;> first | exact .section hs ht hn hc.1 hc.2 | exact absurd h (by decide)
        · exact absurd h (by cases r <;> decide)

end

/-! ## te files -/

/-- The average line of the section of a type. -/
noncomputable def Spec.averageLine (m : Maps) (head : Loc) (s : Str) : Rat :=
  average (sectionLines m head (.of s))

theorem averages_te {m : Maps} {head : Loc} (h : TeFile head)
    (hline : ∀ l ∈ orderingNodes head, l.info.lineno < 2 ^ 32) {secs : List SectionData}
    (hp : prepareSections m (orderingNodes head) [] = .ok (some secs)) (hne : secs ≠ []) :
    Averages secs (averageLine m head) :=
  fun s hs => average_eq m head h hline hp hne (.of s) hs

/-- **C83.** In every te file, for any two lines and under each of the three sets of rules: the
answer of the comparison that C-001 marks lines with says that the first must not
stand before the second, with the reason, exactly when the specification does. -/
theorem C83_order (m : Maps) (data : CheckData) (hfl : data.flavor = .teFile) (head : Loc)
    (h : TeFile head) (st : OrderState) (hline : ∀ l ∈ orderingNodes head, l.info.lineno < 2 ^ 32) :
    ∃ o, checkTeOrder m data head st = .ok (⟨some o, 0⟩, none) ∧
      ∀ a ∈ orderedNodes head, ∀ b ∈ orderedNodes head,
        ∃ x, compareNodes m o.sections o.modName data.config.orderConf a b = .ok x ∧
          (∀ r : Reason, x = -r.code ↔
            WrongBefore m data.modName data.config.orderConf (averageLine m head) r a b) ∧
          (x < 0 ↔ ∃ r, WrongBefore m data.modName data.config.orderConf (averageLine m head) r a b) := by
  obtain ⟨o, e1, e2, -⟩ := C30_te_file m data hfl head h st
  refine ⟨o, e1, ?_⟩
  obtain ⟨hsecs, hp⟩ : o.sections ≠ [] ∧
      prepareSections m (orderingNodes head) [] = .ok (some o.sections) := by
    obtain ⟨secs, hps, hsecs⟩ := prepareSections_ok m (orderingNodes head) h.nodes []
    simp only [checkTeOrder, hfl, h.flavor, prepareOrderingMetadata, hps, ne_eq,
      not_true_eq_false, if_false, if_true, Res.bind_ok, Res.pure_eq] at e1
    obtain ⟨c, hc, _⟩ := h.first
    cases hcl : calcLis (compareNodes m secs data.modName data.config.orderConf)
        (List.replicate (orderingNodes head).length OrderNode.zero).length (orderedNodes head) with
    | ub => rw [hcl] at e1; cases e1
    | ok ns =>
      rw [hcl] at e1
      cases e1
      refine ⟨hsecs (.inl ?_), hps⟩
      simp only [orderingNodes, hc]
      obtain ⟨t, ht⟩ := orderingWalk_ne_nil c
      rw [ht]; simp
  have havg := averages_te h hline hp hsecs
  intro a ha b hb
  simp only [orderedNodes, List.mem_filter, decide_eq_true_eq] at ha hb
  have sa := h.nodes a ha.1
  have sb := h.nodes b hb.1
  rw [e2]
  obtain ⟨x, hx, hr⟩ := compareNodes_range m o.sections data.modName data.config.orderConf hsecs a b sa sb ha.2 hb.2
  have key : ∀ r : Reason, x = -r.code ↔
      WrongBefore m data.modName data.config.orderConf (averageLine m head) r a b := by
    intro r
    constructor
    · rintro rfl
      exact code_wrong havg r a b sa sb ha.2 hb.2 hx
    · intro hw
      have := wrong_code havg hw sa sb ha.2 hb.2
      rw [hx] at this
      simpa using this
  refine ⟨x, hx, key, ?_⟩
  constructor
  · intro hneg
    have : ∃ r : Reason, x = -r.code := by
      simp only [orderReasons, List.mem_cons, List.not_mem_nil, or_false, orderEqual, orderSection,
        orderDeclSubsection, orderLocalSubsection, orderAlphabetical] at hr
      have : x = -1 ∨ x = -2 ∨ x = -3 ∨ x = -4 := by omega
      rcases this with h | h | h | h
      · exact ⟨.section, h⟩
      · exact ⟨.declarationKind, h⟩
      · exact ⟨.subsection, h⟩
      · exact ⟨.alphabetical, h⟩
    obtain ⟨r, hr⟩ := this
    exact ⟨r, (key r).1 hr⟩
  · rintro ⟨r, hw⟩
    rw [(key r).2 hw]
    cases r <;> decide

/-! ## What is reported -/

theorem wrong_subsections {m : Maps} {mod : Str} {v : OrderConf} {avg : Str → Rat} {a b : Loc}
    (h : WrongBefore m mod v avg .subsection a b) :
    (∃ j, InSubsection m mod v a j) ∧ ∃ k, InSubsection m mod v b k := by
  cases h with
  | «subsection» _ _ _ hx hy _ => exact ⟨⟨_, hx⟩, _, hy⟩
  | blocks _ _ _ _ hx hy => exact ⟨⟨_, hx⟩, _, hy⟩

theorem subsection_or_none (m : Maps) (mod : Str) (v : OrderConf) (l : Loc) :
    SubsectionOrNone m mod v l (getLocalSubsection m mod v l) := by
  by_cases h : getLocalSubsection m mod v l = .unknown
  · refine .inr ⟨h, fun j hj => ?_⟩
    have := (subsection_iff m mod v l j (InSubsection.known hj)).2 hj
    exact InSubsection.known hj (this.symm.trans h)
  · exact .inl ((subsection_iff m mod v l _ h).1 rfl)

theorem lssToString_eq (k : Lss) : lssToString k = kindText k := by cases k <;> rfl

theorem lssReason_eq (v : OrderConf) (k : Lss) (h : k ≠ .unknown) : lssReason v k = some (otherText v k) := by
  cases k <;> first | rfl | (cases v <;> rfl) | exact absurd rfl h

theorem lssFollowup_eq (k j : Lss) : (lssFollowup k j).getD [] = layerNote k j := by
  cases k <;> cases j <;> rfl

/-- The text of a reason. -/
theorem reason_text {m : Maps} {v : OrderConf} {o : OrderingMetadata} {avg : Str → Rat} {index k : Nat}
    {this other : Loc} {r : Reason} (hs : ShapedLoc this) (ho : ShapedLoc other)
    (hw : WrongBefore m o.modName v avg r this other ∨ WrongBefore m o.modName v avg r other this) :
    ∃ txt note, reasonText m v o index k (-r.code) this other = .ok (some (txt, note)) ∧
      Because m o.modName v this other (index < k) r txt (note.getD []) := by
  obtain ⟨s, es⟩ := section_exists m hs
  obtain ⟨t, et⟩ := section_exists m ho
  unfold reasonText
  cases r with
  | «section» =>
    rw [if_pos (by decide)]
    simp only [section_title es, section_title et, Res.bind_ok, Res.pure_eq, strcmp_eq_zero]
    have hd : ∀ {u : Section} {l : Loc}, ShapedLoc l → InSection m l u →
        (secDeclaration = u.title ↔ u = .declarations) := by
      intro u l hl hu
      constructor
      · intro h; exact Section.title_inj (hu.ordinary hl) (t := .declarations) trivial h.symm
      · rintro rfl; rfl
    simp only [hd hs es, hd ho et]
    refine ⟨_, _, rfl, ?_⟩
    simp only [Option.getD_some]
    by_cases h1 : s = .declarations
    · subst h1
      rw [if_pos rfl]
      exact .notDeclaration es et
    · rw [if_neg h1]
      by_cases h2 : t = .declarations
      · subst h2
        rw [if_pos rfl]
        split
        · rename_i d hd
          split
          · rename_i ht; exact .transform es h1 et hd ht
          · rename_i ht
            refine .declaration es h1 et ?_
            intro d' hd'
            rw [hd] at hd'; cases hd'; exact ht
        · rename_i hn
          exact .declaration es h1 et (fun d hd => absurd hd (hn d))
      · rw [if_neg h2]
        exact .different es h1 et h2
  | declarationKind =>
    rw [if_neg (by decide), if_pos (by decide)]
    exact ⟨_, _, rfl, .kind⟩
  | «subsection» =>
    rw [if_neg (by decide), if_neg (by decide), if_pos (by decide)]
    obtain ⟨⟨x, hx⟩, y, hy⟩ : (∃ j, InSubsection m o.modName v this j) ∧ ∃ k, InSubsection m o.modName v other k := by
      rcases hw with h | h
      · exact wrong_subsections h
      · exact (wrong_subsections h).symm
    have kx := InSubsection.known hx
    have ky := InSubsection.known hy
    simp only [(subsection_iff _ _ _ _ _ kx).2 hx, (subsection_iff _ _ _ _ _ ky).2 hy, lssReason_eq v y ky]
    refine ⟨_, _, rfl, ?_⟩
    rw [lssFollowup_eq]
    exact .subsection hx hy
  | alphabetical =>
    rw [if_neg (by decide), if_neg (by decide), if_neg (by decide), if_pos (by decide)]
    refine ⟨_, _, rfl, ?_⟩
    by_cases h : k > index
    · rw [if_pos h]; exact .earlier h
    · rw [if_neg h]; exact .later h

/-- Of two lines of the file, `this` at index `j` and `other` at index `k`, the earlier one may
not stand before the later one, for the reason `r`. -/
def Spec.Misplaced (m : Maps) (mod : Str) (v : OrderConf) (avg : Str → Rat) (r : Reason) (j k : Nat)
    (this other : Loc) : Prop :=
  (k < j ∧ WrongBefore m mod v avg r other this) ∨ (j < k ∧ WrongBefore m mod v avg r this other)

theorem kept_first {xs : List Loc} : ∀ {ns : List (OrderNode Loc)} {k : Nat} {b : Loc} {n : OrderNode Loc},
    (∀ (i : Nat) n', i < k → ns[i]? = some n' → n'.inOrder ≠ true) → xs[k]? = some b → ns[k]? = some n →
    n.inOrder = true → ∃ t, kept xs ns = b :: t := by
  induction xs with
  | nil => intro ns k b n _ h; simp at h
  | cons x xs ih =>
    intro ns k b n hno hb hn hio
    cases ns with
    | nil => simp at hn
    | cons n' ns =>
      cases k with
      | zero =>
        simp only [List.getElem?_cons_zero, Option.some.injEq] at hb hn
        subst hb hn
        simp [kept, hio]
      | succ k =>
        have h0 : n'.inOrder ≠ true := hno 0 n' (by omega) rfl
        simp only [kept, h0]
        exact ih (k := k) (fun i m hi hm => hno (i + 1) m (by omega) hm) hb hn hio

theorem follows_kept {R : Loc → Loc → Prop} {xs : List Loc} : ∀ {ns : List (OrderNode Loc)} {j k : Nat} {a b : Loc},
    Follows R (kept xs ns) → j < k → (∃ n, ns[j]? = some n ∧ n.inOrder = true) →
    (∃ n, ns[k]? = some n ∧ n.inOrder = true) →
    (∀ i, j < i → i < k → ¬∃ n, ns[i]? = some n ∧ n.inOrder = true) →
    xs[j]? = some a → xs[k]? = some b → R a b := by
  induction xs with
  | nil => intro ns j k a b _ _ _ _ _ h; simp at h
  | cons x xs ih =>
    intro ns j k a b hf hjk hj hk hno ha hb
    cases ns with
    | nil => simp at hj
    | cons n' ns =>
      obtain ⟨k, rfl⟩ : ∃ k', k = k' + 1 := ⟨k - 1, by omega⟩
      cases j with
      | zero =>
        simp only [List.getElem?_cons_zero, Option.some.injEq] at ha hj
        subst ha
        obtain ⟨_, rfl, hio⟩ := hj
        obtain ⟨n, hn, hio'⟩ := hk
        obtain ⟨t, ht⟩ := kept_first (xs := xs) (ns := ns) (k := k)
          (fun i m hi hm hmo => hno (i + 1) (by omega) (by omega) ⟨m, hm, hmo⟩) hb hn hio'
        simp only [kept, hio, if_true, ht] at hf
        exact hf.1
      | succ j =>
        have hf' : Follows R (kept xs ns) := by
          simp only [kept] at hf
          split at hf
          · cases hkt : kept xs ns with
            | nil => trivial
            | cons c t => rw [hkt] at hf; exact hf.2
          · exact hf
        exact ih hf' (by omega) hj hk (fun i h1 h2 => hno (i + 1) (by omega) (by omega)) ha hb

theorem kept_some {xs : List Loc} : ∀ {ns : List (OrderNode Loc)}, kept xs ns ≠ [] →
    ∃ (j : Nat) (a : Loc), xs[j]? = some a ∧ ∃ n : OrderNode Loc, ns[j]? = some n ∧ n.inOrder = true := by
  induction xs with
  | nil => intro ns h; simp [kept] at h
  | cons x xs ih =>
    intro ns h
    cases ns with
    | nil => simp [kept] at h
    | cons n ns =>
      by_cases hio : n.inOrder = true
      · exact ⟨0, x, rfl, n, rfl, hio⟩
      · simp only [kept, hio] at h
        obtain ⟨j, a, h1, n', h2, h3⟩ := ih (ns := ns) (by simpa using h)
        exact ⟨j + 1, a, h1, n', h2, h3⟩

/-- **C83.** C-001 on the lines of a parsed te file. At the file node it keeps some of the lines (at
least one); none of them stands wrongly before the next one that is kept. It says nothing about a kept line.
About any other line it says that it is out of order, naming the nearest kept line (other than the
first line of the file) with which it is misplaced, its own subsection and the reason; only if
there is no such kept line it says that it has found no reason. -/
theorem C83_reports (m : Maps) (data : CheckData) (hfl : data.flavor = .teFile) (head : Loc)
    (h : TeFile head) (st : OrderState) (hline : ∀ l ∈ orderingNodes head, l.info.lineno < 2 ^ 32) :
    ∃ o, checkTeOrder m data head st = .ok (⟨some o, 0⟩, none) ∧
    ∃ isKept : Nat → Prop, ∀ lines, lines = orderedNodes head →
      ∀ wrong : Reason → Loc → Loc → Prop,
        wrong = WrongBefore m data.modName data.config.orderConf (averageLine m head) →
      ∀ misplaced : Reason → (j k : Nat) → Loc → Loc → Prop,
        misplaced = Misplaced m data.modName data.config.orderConf (averageLine m head) →
      (∃ j a, lines[j]? = some a ∧ isKept j) ∧
      (∀ j k a b, j < k → isKept j → isKept k → (∀ i, j < i → i < k → ¬isKept i) →
        lines[j]? = some a → lines[k]? = some b → ∀ r, ¬wrong r a b) ∧
      ∀ j this i, lines[j]? = some this → i ≤ j →
        ∃ r, checkTeOrder m data this ⟨some o, i⟩ = .ok (⟨some o, j⟩, r) ∧
          (isKept j → r = none) ∧
          (¬isKept j →
            (∃ k other reason kind text note, 0 < k ∧ isKept k ∧ lines[k]? = some other ∧
              misplaced reason j k this other ∧
              (∀ i other' reason', 0 < i → i - j + (j - i) < k - j + (j - k) → isKept i →
                lines[i]? = some other' → ¬misplaced reason' j i this other') ∧
              SubsectionOrNone m data.modName data.config.orderConf this kind ∧
              Because m data.modName data.config.orderConf this other (j < k) reason text note ∧
              r = some ⟨'C', 1, orderMessage kind (if j < k then cs!"before" else cs!"after")
                other.info.lineno text note⟩) ∨
            ((∀ k other reason, 0 < k → isKept k → lines[k]? = some other →
                ¬misplaced reason j k this other) ∧
              r = some (internalError cs!"Failed to compute reason C-001"))) := by
  have hline' : ∀ l ∈ orderedNodes head, l.info.lineno < 2 ^ 32 := by
    intro l hl
    simp only [orderedNodes, List.mem_filter] at hl
    exact hline l hl.1
  obtain ⟨o, e1, emod, elen, enode, emark, ekept, efollow⟩ := C30_te_file m data hfl head h st
  obtain ⟨o', e1', hcmp⟩ := C83_order m data hfl head h st hline
  rw [e1] at e1'; cases e1'
  obtain ⟨o', e1', hrep⟩ := order_report m data hfl head h st hline'
  rw [e1] at e1'; cases e1'
  have hmem : ∀ l ∈ orderedNodes head, ShapedLoc l ∧ l.flavor ≠ .startBlock := by
    intro l hl
    simp only [orderedNodes, List.mem_filter, decide_eq_true_eq] at hl
    exact ⟨h.nodes l hl.1, hl.2⟩
  refine ⟨o, e1, fun j => ∃ n, o.nodes[j]? = some n ∧ n.inOrder = true, ?_⟩
  rintro _ rfl _ rfl _ rfl
  have hconf : ∀ (j k : Nat) (this other : Loc) (x : Int), (orderedNodes head)[j]? = some this →
      (ConflictsWith m data.config.orderConf o j this k other x ↔
        (∃ n, o.nodes[k]? = some n ∧ n.inOrder = true) ∧ (orderedNodes head)[k]? = some other ∧
        ∃ r : Reason, x = -r.code ∧ Misplaced m data.modName data.config.orderConf (averageLine m head) r
          j k this other) := by
    intro j k this other x hj
    have hthis := List.mem_of_getElem? hj
    constructor
    · rintro ⟨⟨n, h1, h2, h3⟩, hx, h4⟩
      have hk : (orderedNodes head)[k]? = some other := by
        by_cases hk : k < (orderedNodes head).length
        · obtain ⟨n', h5, h6⟩ := enode k hk
          rw [h1] at h5; cases h5
          rw [h3] at h6; cases h6
          exact List.getElem?_eq_getElem hk
        · rw [emark k n (by omega) h1] at h2; cases h2
      have hother := List.mem_of_getElem? hk
      refine ⟨⟨n, h1, h2⟩, hk, ?_⟩
      rcases h4 with ⟨h4, h5⟩ | ⟨h4, h5⟩
      · obtain ⟨y, hy, h6, h7⟩ := hcmp other hother this hthis
        rw [h5] at hy; cases hy
        obtain ⟨r, hr⟩ := h7.1 hx
        exact ⟨r, (h6 r).2 hr, .inl ⟨h4, hr⟩⟩
      · obtain ⟨y, hy, h6, h7⟩ := hcmp this hthis other hother
        rw [h5] at hy; cases hy
        obtain ⟨r, hr⟩ := h7.1 hx
        exact ⟨r, (h6 r).2 hr, .inr ⟨h4, hr⟩⟩
    · rintro ⟨⟨n, h1, h2⟩, hk, r, rfl, h4⟩
      have hother := List.mem_of_getElem? hk
      obtain ⟨hklt, hk'⟩ := List.getElem?_eq_some_iff.1 hk
      obtain ⟨n', h5, h6⟩ := enode k hklt
      rw [h1] at h5; cases h5
      refine ⟨⟨n, h1, h2, by rw [h6, hk']⟩, by cases r <;> decide, ?_⟩
      rcases h4 with ⟨h4, h5⟩ | ⟨h4, h5⟩
      · obtain ⟨y, hy, h6, h7⟩ := hcmp other hother this hthis
        refine .inl ⟨h4, ?_⟩
        rw [hy, (h6 r).2 h5]
      · obtain ⟨y, hy, h6, h7⟩ := hcmp this hthis other hother
        refine .inr ⟨h4, ?_⟩
        rw [hy, (h6 r).2 h5]
  refine ⟨kept_some ekept, ?_, ?_⟩
  · intro j k a b hjk hj hk hno ha hb r hw
    obtain ⟨x, hx, hx0⟩ := follows_kept efollow hjk hj hk hno ha hb
    obtain ⟨y, hy, _, h7⟩ := hcmp a (List.mem_of_getElem? ha) b (List.mem_of_getElem? hb)
    rw [hx] at hy; cases hy
    have := h7.2 ⟨r, hw⟩
    omega
  · intro j this i hj hij
    obtain ⟨hjlt, hj'⟩ := List.getElem?_eq_some_iff.1 hj
    subst hj'
    obtain ⟨n, hn, r, hr, h1, h2⟩ := hrep j hjlt i hij
    refine ⟨r, hr, ?_, ?_⟩
    · rintro ⟨n', hn', hio⟩
      rw [hn] at hn'; cases hn'
      exact h1 hio
    · intro hnot
      have hio : n.inOrder = false := by
        cases hio : n.inOrder with
        | false => rfl
        | true => exact absurd ⟨n, hn, hio⟩ hnot
      rcases h2 hio with ⟨k, other, x, hc, hk0, hmemo, hnear, txt, note, ht, hr'⟩ | ⟨h3, hr'⟩
      · obtain ⟨hkept, hk, reason, hx, hmis⟩ := (hconf j k _ other x hj).1 hc
        subst hx
        have hw : WrongBefore m o.modName data.config.orderConf (averageLine m head) reason
              (orderedNodes head)[j] other ∨
            WrongBefore m o.modName data.config.orderConf (averageLine m head) reason other
              (orderedNodes head)[j] := by
          rw [emod]
          rcases hmis with ⟨_, h⟩ | ⟨_, h⟩
          · exact .inr h
          · exact .inl h
        obtain ⟨txt', note', ht', hbec⟩ := reason_text (index := j) (k := k)
          (hmem _ (List.getElem_mem hjlt)).1 (hmem other hmemo).1 hw
        rw [ht] at ht'; cases ht'
        rw [emod] at hbec
        refine .inl ⟨k, other, reason, _, txt, note.getD [], hk0, hkept, hk, hmis, ?_,
          subsection_or_none m data.modName data.config.orderConf _, hbec, ?_⟩
        · intro i' other' reason' hi0 hd hik hio' hmis'
          exact hnear i' other' (-reason'.code) hi0 hd
            ((hconf j i' _ other' _ hj).2 ⟨hik, hio', reason', rfl, hmis'⟩)
        · rw [hr', orderMessage, lssToString_eq, emod]
      · refine .inr ⟨?_, hr'⟩
        intro k other reason hk0 hkept hk hmis
        exact h3 k other (-reason.code) hk0 ((hconf j k _ other _ hj).2 ⟨hkept, hk, reason, rfl, hmis⟩)

/-! ## Non-vacuity: the concrete file -/

example : TeFile exTeFile ∧ exOrderData.flavor = .teFile ∧
    ∀ l ∈ orderingNodes exTeFile, l.info.lineno < 2 ^ 32 :=
  ⟨exTeFile_is_te_file, rfl, by decide +kernel⟩

/-- The rule on line 2 stands wrongly before the declaration on line 3, whatever the averages are. -/
example (avg : Str → Rat) (a b : Loc) (ha : (orderedNodes exTeFile)[1]? = some a)
    (hb : (orderedNodes exTeFile)[2]? = some b) : WrongBefore {} cs!"foo" .ref avg .section a b := by
  have da : (orderedNodes exTeFile)[1]?.map Loc.data =
      some (.av ⟨.allow, [cs!"foo_t"], [cs!"self"], [cs!"process"], [cs!"signal"]⟩) := by decide +kernel
  have db : (orderedNodes exTeFile)[2]?.map Loc.data = some (.decl ⟨.type, cs!"foo_t", []⟩) := by decide +kernel
  have ub : (orderedNodes exTeFile)[2]?.map (fun l => l.ups.map (·.info.flavor)) = some [] := by
    decide +kernel
  rw [ha] at da
  rw [hb] at db ub
  simp only [Option.map_some, Option.some.injEq] at da db ub
  refine .declarations (s := cs!"foo_t") (.rule (.inl da) (by simp [FreeRule]) rfl) (.declaration ?_ ?_)
  · rw [db]; trivial
  · rintro ⟨f, hf, h⟩
    have := List.mem_map_of_mem (f := fun f : Frame => f.info.flavor) hf
    rw [ub] at this
    rcases h with h | h <;> simp [h] at this

/-- What is said about it. -/
example : (match runTeOrder {} exOrderData (exTeFile :: orderedNodes exTeFile) ⟨none, 0⟩ with
    | .ok l => (l[2]?.map (·.2)).join
    | .ub => none) =
    some ⟨'C', 1, orderMessage .self cs!"before" 3 cs!"that is a declaration"
      (sectionNote (.of cs!"foo_t") .declarations)⟩ := by decide +kernel

end Selint
