import Verif.Spec.TeChecks
import Verif.Lemmas.Loc
import Verif.Props.FcChecks
import Verif.Props.Names
/-! # Lemmas about loops, tables and positions for the checks on te and if files -/

namespace Selint
open Spec

/-! ## Loops -/

theorem firstIn_iff_find {α : Type} {P : α → Prop} {p : α → Bool} (hp : ∀ x, p x = true ↔ P x)
    (l : List α) (x : α) : FirstIn P l x ↔ l.find? p = some x := by
  rw [List.find?_eq_some_iff_append]
  constructor
  · rintro ⟨b, a, h1, h2, h3⟩
    exact ⟨(hp x).2 h2, b, a, h1, fun y hy => by have := h3 y hy; rw [← hp] at this; simpa using this⟩
  · rintro ⟨h2, b, a, h1, h3⟩
    exact ⟨b, a, h1, (hp x).1 h2, fun y hy h => by have := h3 y hy; rw [(hp y).2 h] at this; simp at this⟩

theorem firstIn_cons {α : Type} {P : α → Prop} {l : List α} {x y : α} :
    FirstIn P (x :: l) y ↔ (P x ∧ y = x) ∨ (¬ P x ∧ FirstIn P l y) := by
  constructor
  · rintro ⟨b, a, h1, h2, h3⟩
    cases b with
    | nil => simp only [List.nil_append, List.cons.injEq] at h1; exact Or.inl ⟨h1.1 ▸ h2, h1.1.symm⟩
    | cons z b =>
      simp only [List.cons_append, List.cons.injEq] at h1
      exact Or.inr ⟨by rw [h1.1]; exact h3 z (by simp), b, a, h1.2, h2,
        fun w hw => h3 w (List.mem_cons_of_mem _ hw)⟩
  · rintro (⟨h, rfl⟩ | ⟨h, b, a, rfl, h2, h3⟩)
    · exact ⟨[], l, rfl, h, by simp⟩
    · exact ⟨x :: b, a, rfl, h2, fun w hw => by
        rcases List.mem_cons.1 hw with rfl | hw
        · exact h
        · exact h3 w hw⟩

theorem not_firstIn_nil {α : Type} {P : α → Prop} {y : α} : ¬ FirstIn P [] y := by
  rintro ⟨b, a, h, -⟩; simp at h

theorem Spec.FirstIn.exists_iff {α : Type} {P : α → Prop} {l : List α} :
    (∃ x, FirstIn P l x) ↔ ∃ x ∈ l, P x := by
  classical
  constructor
  · rintro ⟨x, b, a, rfl, h, -⟩; exact ⟨x, by simp, h⟩
  · rintro ⟨x, hx, h⟩
    cases hf : l.find? (fun y => decide (P y)) with
    | none =>
      rw [List.find?_eq_none] at hf
      exact absurd h (by simpa using hf x hx)
    | some y => exact ⟨y, (firstIn_iff_find (by simp) l y).2 hf⟩

theorem Spec.Reports.one {out : CheckOut} {P : CheckResult → Prop} (h : Reports out P) :
    ReportsOne out P := by
  obtain ⟨o, h1, h2⟩ := h
  refine ⟨o, h1, ?_, fun r => (h2 r).1⟩
  cases o with
  | none => simp only [true_iff]; intro r hr; have := (h2 r).2 hr; cases this
  | some r => simp only [reduceCtorEq, false_iff]; intro h; exact h r ((h2 r).1 rfl)

/-- Nothing is reported iff no result has the property. -/
theorem Spec.ReportsOne.none_iff {out : CheckOut} {P : CheckResult → Prop} (h : ReportsOne out P) :
    out = .ok none ↔ ∀ r, ¬ P r := by
  obtain ⟨o, h1, h2, -⟩ := h
  rw [h1, ← h2]; simp

theorem Spec.Reports.congr {out : CheckOut} {P Q : CheckResult → Prop} (h : Reports out P)
    (hq : ∀ r, P r ↔ Q r) : Reports out Q := by
  obtain ⟨o, h1, h2⟩ := h
  exact ⟨o, h1, fun r => (h2 r).trans (hq r)⟩

theorem reports_none {P : CheckResult → Prop} (h : ∀ r, ¬ P r) : Reports noResult P :=
  ⟨none, rfl, fun r => by simp [h r]⟩

theorem reports_result {P : CheckResult → Prop} {s : Char} {k : Nat} {msg : Str}
    (h : ∀ r, P r ↔ r = ⟨s, k, msg⟩) : Reports (result s k msg) P :=
  ⟨_, rfl, fun r => by simp [h r, eq_comm]⟩

/-- A loop that stops at the first element with a property. -/
theorem reports_find {α : Type} {P : α → Prop} {p : α → Bool} (hp : ∀ x, p x = true ↔ P x)
    (l : List α) (mk : α → CheckResult) {out : CheckOut}
    (h : out = match l.find? p with | none => noResult | some x => .ok (some (mk x))) :
    Reports out fun r => ∃ x, FirstIn P l x ∧ r = mk x := by
  subst h
  simp only [firstIn_iff_find hp]
  cases l.find? p with
  | none => exact reports_none (by simp)
  | some x => exact ⟨_, rfl, fun r => by simp [eq_comm]⟩

/-! ## Strings -/

theorem strcmp_lt_iff {a b : Str} : strcmp a b < 0 ↔ a < b := by
  induction a generalizing b with
  | nil => cases b <;> simp [strcmp]
  | cons x xs ih =>
    cases b with
    | nil => simp [strcmp]
    | cons y ys =>
      rw [List.cons_lt_cons_iff, strcmp]
      by_cases h : x = y
      · subst h
        simp only [if_true, ih, true_and]
        constructor
        · intro h; exact Or.inr h
        · rintro (h | h)
          · exact absurd h (Char.lt_irrefl x)
          · exact h
      · simp only [h, if_false, false_and, or_false]
        show _ ↔ x.toNat < y.toNat
        split <;> simp_all

theorem isSome_lookUpDecl {ops : List MapOp} {k : Str} {fl : DeclFlavor} :
    ((tablesAfter ops).lookUpDecl k fl).isSome = true ↔ DeclaredIn ops fl k := by
  have h := lookUpDecl_none_iff ops k fl
  cases hl : (tablesAfter ops).lookUpDecl k fl with
  | none => rw [hl] at h; simpa using h.1 rfl
  | some x => rw [hl] at h; simp at h; simp [h]

/-! ## Tables -/

theorem lookUpIf_some_iff {ops : List MapOp} {k md : Str} :
    (tablesAfter ops).lookUpIf k = some md ↔ InterfaceIn ops k md := by
  rw [(C14_maps_first_wins ops k).2.2.1, List.findSome?_eq_some_iff]
  have hno : ∀ l : List MapOp, (∀ x ∈ l, x.definesIf k = none) ↔ ∀ m, MapOp.iface k m ∉ l := by
    intro l
    constructor
    · intro h m hm; have := h _ hm; simp [MapOp.definesIf] at this
    · intro h x hx
      cases x <;> simp only [MapOp.definesIf]
      rename_i n s
      rw [if_neg]; rintro rfl; exact h s hx
  constructor
  · rintro ⟨b, op, a, rfl, ho, hb⟩
    cases op <;> simp only [MapOp.definesIf, reduceCtorEq] at ho
    rename_i n s
    split at ho
    · rename_i h; subst h; cases ho; exact ⟨b, a, rfl, (hno b).1 hb⟩
    · cases ho
  · rintro ⟨b, a, rfl, hb⟩
    exact ⟨b, _, a, rfl, by simp [MapOp.definesIf], (hno b).2 hb⟩

theorem isSome_lookUpIf {ops : List MapOp} {k : Str} :
    ((tablesAfter ops).lookUpIf k).isSome = true ↔ KnownInterface ops k := by
  rw [(C14_maps_first_wins ops k).2.2.1, List.isSome_findSome?, List.any_eq_true]
  constructor
  · rintro ⟨op, hop, h⟩
    cases op <;> simp only [MapOp.definesIf, Option.isSome_none, Bool.false_eq_true] at h
    rename_i n s
    split at h
    · rename_i e; subst e; exact ⟨s, hop⟩
    · simp at h
  · rintro ⟨md, h⟩; exact ⟨_, h, by simp [MapOp.definesIf]⟩

theorem lookUpMod_some_iff {ops : List MapOp} {k s : Str} :
    (tablesAfter ops).lookUpMod k = some s ↔ StatusIs ops k s := by
  rw [(C14_maps_first_wins ops k).1, List.findSome?_eq_some_iff]
  have hno : ∀ l : List MapOp, (∀ x ∈ l, x.setsMod k = none) ↔ ∀ m, MapOp.mod k m ∉ l := by
    intro l
    constructor
    · intro h m hm; have := h _ hm; simp [MapOp.setsMod] at this
    · intro h x hx
      cases x <;> simp only [MapOp.setsMod]
      rename_i n s
      rw [if_neg]; rintro rfl; exact h s hx
  constructor
  · rintro ⟨b, op, a, rfl, ho, hb⟩
    cases op <;> simp only [MapOp.setsMod, reduceCtorEq] at ho
    rename_i n s
    split at ho
    · rename_i h; subst h; cases ho; exact ⟨b, a, rfl, (hno b).1 hb⟩
    · cases ho
  · rintro ⟨b, a, rfl, hb⟩
    exact ⟨b, _, a, rfl, by simp [MapOp.setsMod], (hno b).2 hb⟩

theorem isSome_lookUpMod {ops : List MapOp} {k : Str} :
    ((tablesAfter ops).lookUpMod k).isSome = true ↔ KnownModule ops k := by
  rw [(C14_maps_first_wins ops k).1, List.isSome_findSome?, List.any_eq_true]
  constructor
  · rintro ⟨op, hop, h⟩
    cases op <;> simp only [MapOp.setsMod, Option.isSome_none, Bool.false_eq_true] at h
    rename_i n s
    split at h
    · rename_i e; subst e; exact ⟨s, hop⟩
    · simp at h
  · rintro ⟨md, h⟩; exact ⟨_, h, by simp [MapOp.setsMod]⟩

theorem isSome_lookUpPermmacro {ops : List MapOp} {k : Str} :
    ((tablesAfter ops).lookUpPermmacro k).isSome = true ↔ KnownPermMacro ops k := by
  rw [(C14_maps_first_wins ops k).2.2.2]
  have hno : ∀ l : List MapOp, (∀ x ∈ l, x.definesPermmacro k = none) ↔
      ∀ m, MapOp.permmacro k m ∉ l := by
    intro l
    constructor
    · intro h m hm; have := h _ hm; simp [MapOp.definesPermmacro] at this
    · intro h x hx
      cases x <;> simp only [MapOp.definesPermmacro]
      rename_i n s
      rw [if_neg]; rintro rfl; exact h s hx
  rw [Option.isSome_iff_exists]
  simp only [Option.filter_eq_some_iff, List.findSome?_eq_some_iff]
  constructor
  · rintro ⟨v, ⟨b, op, a, rfl, ho, hb⟩, hv⟩
    cases op <;> simp only [MapOp.definesPermmacro, reduceCtorEq] at ho
    rename_i n s
    split at ho
    · rename_i h; subst h; cases ho
      cases v with
      | nil => simp at hv
      | cons p ps => exact ⟨b, p, ps, a, rfl, (hno b).1 hb⟩
    · cases ho
  · rintro ⟨b, p, ps, a, rfl, hb⟩
    exact ⟨p :: ps, ⟨b, _, a, rfl, by simp [MapOp.definesPermmacro], (hno b).2 hb⟩, by simp⟩

/-! ## Positions -/

theorem mem_ancestors_iff {l a : Loc} : a ∈ l.ancestors ↔ Encloses a l := Loc.mem_ancestors

theorem isRequireBlock_iff {l : Loc} : isRequireBlock l.info = true ↔ RequireBlock l := by
  simp [isRequireBlock, RequireBlock, Loc.flavor, Loc.info]

theorem inScope_step {r l : Loc} :
    InScope r l ↔ r = l ∨ (∃ p, l.prev? = some p ∧ InScope r p) ∨
      (l.prev? = none ∧ ∃ p, l.parent? = some p ∧ InScope r p) := by
  constructor
  · rintro ⟨hu, u, i, j, q, h1, h2, h3⟩
    rcases List.eq_nil_or_concat q with rfl | ⟨q', k, rfl⟩
    · by_cases hij : j = i
      · subst hij; left; exact Loc.eq_of_addr hu (by rw [h1, h2])
      · right; left
        have ha := l.addr_eq
        rw [h1] at ha
        obtain ⟨ha1, ha2⟩ := List.append_inj' ha (by simp)
        simp only [List.cons.injEq, and_true] at ha2
        cases hp : l.prev? with
        | none => rw [Loc.prev_none.1 hp] at ha2; simp at ha2; omega
        | some p =>
          obtain ⟨u', k', h4, h5⟩ := Loc.addr_prev hp
          rw [h1] at h4
          obtain ⟨h6, h7⟩ := List.append_inj' h4 (by simp)
          simp only [List.cons.injEq, and_true] at h7
          subst h6
          exact ⟨p, rfl, hu.trans (Loc.unzip_prev hp).symm, u, k', j, [], h5, h2, by omega⟩
    · right
      rw [List.concat_eq_append, ← List.cons_append, ← List.append_assoc] at h1
      cases hp : l.prev? with
      | some p =>
        left
        obtain ⟨u', k', h4, h5⟩ := Loc.addr_prev hp
        rw [h1] at h4
        obtain ⟨h6, h7⟩ := List.append_inj' h4 (by simp)
        subst h6
        exact ⟨p, rfl, hu.trans (Loc.unzip_prev hp).symm, u, i, j, q' ++ [k'], by simp [h5], h2, h3⟩
      | none =>
        right
        refine ⟨rfl, ?_⟩
        cases hpar : l.parent? with
        | none =>
          have ha := l.addr_eq
          rw [h1, Loc.parent_none.1 hpar] at ha
          have := congrArg List.length ha
          simp [upsAddr] at this
          omega
        | some p =>
          have h4 := Loc.addr_parent hpar
          rw [h1] at h4
          obtain ⟨h6, h7⟩ := List.append_inj' h4 (by simp)
          exact ⟨p, rfl, hu.trans (Loc.unzip_parent hpar).symm, u, i, j, q', h6.symm, h2, h3⟩
  · rintro (rfl | ⟨p, hp, hu, u, i, j, q, h1, h2, h3⟩ | ⟨-, p, hp, hu, u, i, j, q, h1, h2, h3⟩)
    · exact ⟨rfl, _, _, _, [], r.addr_eq, r.addr_eq, Nat.le_refl _⟩
    · refine ⟨hu.trans (Loc.unzip_prev hp), ?_⟩
      obtain ⟨u', k', h4, h5⟩ := Loc.addr_prev hp
      rw [h1] at h5
      rcases List.eq_nil_or_concat q with rfl | ⟨q', k, rfl⟩
      · obtain ⟨h6, h7⟩ := List.append_inj' h5 (by simp)
        simp only [List.cons.injEq, and_true] at h7
        subst h6
        exact ⟨u, k' + 1, j, [], h4, h2, by omega⟩
      · rw [List.concat_eq_append, ← List.cons_append, ← List.append_assoc] at h5
        obtain ⟨h6, h7⟩ := List.append_inj' h5 (by simp)
        exact ⟨u, i, j, q' ++ [k' + 1], by rw [h4, ← h6]; simp, h2, h3⟩
    · refine ⟨hu.trans (Loc.unzip_parent hp), u, i, j, q ++ [l.lefts.length], ?_, h2, h3⟩
      rw [Loc.addr_parent hp, h1]; simp

/-! ## Names -/

theorem usedNames_ok (node : Loc) :
    ∃ names, usedNames node = .ok names ∧ ∀ x, x ∈ names ↔ Uses node.data x := by
  have hn := C50_names_exact node.info
  unfold usedNames
  cases hd : node.data with
  | decl d =>
    have := (C50_order node.info).2.2.2.2.1 d hd
    simp only [this]
    refine ⟨_, rfl, fun x => ?_⟩
    rw [mem_map_stripDash]
    rfl
  | _ =>
    refine ⟨_, rfl, fun x => ?_⟩
    rw [hn]
    show (∃ w, Mentions node.data w ∧ _) ↔ _
    rw [hd]
    rfl

end Selint
