import Verif.Lemmas.PermSelect
/-! # C24, C25, C26: permission macro suggestions -/

namespace Selint
open Spec

/-! ## Classes of macros -/

theorem endsWith_iff {s t : Str} : endsWith s t = true ↔ t <:+ s := by
  unfold endsWith
  split
  · rename_i h
    simp only [Bool.false_eq_true, false_iff]
    intro hs
    have := hs.length_le; omega
  · rw [beq_iff_eq, List.suffix_iff_eq_drop, eq_comm]

theorem suffix_exclusive {a b s : Str} (h : ¬(a <:+ b) ∧ ¬(b <:+ a)) (ha : a <:+ s) : ¬(b <:+ s) := by
  intro hb
  rcases List.suffix_or_suffix_of_suffix ha hb with h1 | h1
  · exact h.1 h1
  · exact h.2 h1

theorem forClass_iff (name cls : Str) :
    ForClass name cls ↔ ∃ c, classCategory cls = some c ∧ macroCategory name = some c := by
  have key : ∀ c, macroCategory name = some c ↔
      (c = .dir ∧ cs!"_dir_perms" <:+ name) ∨
      (c = .lnkFile ∧ cs!"_lnk_file_perms" <:+ name) ∨
      (c = .chrFile ∧ (cs!"_chr_file_perms" <:+ name ∨ cs!"_term_perms" <:+ name)) ∨
      (c = .blkFile ∧ cs!"_blk_file_perms" <:+ name) ∨
      (c = .sockFile ∧ cs!"_sock_file_perms" <:+ name) ∨
      (c = .fifoFile ∧ cs!"_fifo_file_perms" <:+ name) ∨
      (c = .file ∧ cs!"_file_perms" <:+ name ∧ ¬cs!"_lnk_file_perms" <:+ name ∧
        ¬cs!"_chr_file_perms" <:+ name ∧ ¬cs!"_blk_file_perms" <:+ name ∧
        ¬cs!"_sock_file_perms" <:+ name ∧ ¬cs!"_fifo_file_perms" <:+ name) := by
    intro c
    have ex : ∀ a ∈ [cs!"_dir_perms", cs!"_lnk_file_perms", cs!"_chr_file_perms", cs!"_term_perms",
        cs!"_blk_file_perms", cs!"_sock_file_perms", cs!"_fifo_file_perms"],
        ∀ b ∈ [cs!"_dir_perms", cs!"_lnk_file_perms", cs!"_chr_file_perms", cs!"_term_perms",
        cs!"_blk_file_perms", cs!"_sock_file_perms", cs!"_fifo_file_perms", cs!"_file_perms"],
        a ≠ b → (b = cs!"_file_perms" → a = cs!"_dir_perms" ∨ a = cs!"_term_perms") →
        (¬(a <:+ b) ∧ ¬(b <:+ a)) := by decide +kernel
    have e : ∀ a b, a ∈ [cs!"_dir_perms", cs!"_lnk_file_perms", cs!"_chr_file_perms", cs!"_term_perms",
        cs!"_blk_file_perms", cs!"_sock_file_perms", cs!"_fifo_file_perms"] →
        b ∈ [cs!"_dir_perms", cs!"_lnk_file_perms", cs!"_chr_file_perms", cs!"_term_perms",
        cs!"_blk_file_perms", cs!"_sock_file_perms", cs!"_fifo_file_perms", cs!"_file_perms"] →
        a ≠ b → (b = cs!"_file_perms" → a = cs!"_dir_perms" ∨ a = cs!"_term_perms") →
        a <:+ name → ¬(b <:+ name) :=
      fun a b h1 h2 h3 h4 h5 => suffix_exclusive (ex a h1 b h2 h3 h4) h5
    have x_dir : cs!"_dir_perms" <:+ name → ¬cs!"_lnk_file_perms" <:+ name ∧ ¬cs!"_chr_file_perms" <:+ name ∧ ¬cs!"_term_perms" <:+ name ∧ ¬cs!"_blk_file_perms" <:+ name ∧ ¬cs!"_sock_file_perms" <:+ name ∧ ¬cs!"_fifo_file_perms" <:+ name ∧ ¬cs!"_file_perms" <:+ name :=
      fun h => ⟨e _ _ (by decide) (by decide) (by decide) (by decide) h, e _ _ (by decide) (by decide) (by decide) (by decide) h, e _ _ (by decide) (by decide) (by decide) (by decide) h, e _ _ (by decide) (by decide) (by decide) (by decide) h, e _ _ (by decide) (by decide) (by decide) (by decide) h, e _ _ (by decide) (by decide) (by decide) (by decide) h, e _ _ (by decide) (by decide) (by decide) (by decide) h⟩
    have x_lnk_file : cs!"_lnk_file_perms" <:+ name → ¬cs!"_dir_perms" <:+ name ∧ ¬cs!"_chr_file_perms" <:+ name ∧ ¬cs!"_term_perms" <:+ name ∧ ¬cs!"_blk_file_perms" <:+ name ∧ ¬cs!"_sock_file_perms" <:+ name ∧ ¬cs!"_fifo_file_perms" <:+ name :=
      fun h => ⟨e _ _ (by decide) (by decide) (by decide) (by decide) h, e _ _ (by decide) (by decide) (by decide) (by decide) h, e _ _ (by decide) (by decide) (by decide) (by decide) h, e _ _ (by decide) (by decide) (by decide) (by decide) h, e _ _ (by decide) (by decide) (by decide) (by decide) h, e _ _ (by decide) (by decide) (by decide) (by decide) h⟩
    have x_chr_file : cs!"_chr_file_perms" <:+ name → ¬cs!"_dir_perms" <:+ name ∧ ¬cs!"_lnk_file_perms" <:+ name ∧ ¬cs!"_term_perms" <:+ name ∧ ¬cs!"_blk_file_perms" <:+ name ∧ ¬cs!"_sock_file_perms" <:+ name ∧ ¬cs!"_fifo_file_perms" <:+ name :=
      fun h => ⟨e _ _ (by decide) (by decide) (by decide) (by decide) h, e _ _ (by decide) (by decide) (by decide) (by decide) h, e _ _ (by decide) (by decide) (by decide) (by decide) h, e _ _ (by decide) (by decide) (by decide) (by decide) h, e _ _ (by decide) (by decide) (by decide) (by decide) h, e _ _ (by decide) (by decide) (by decide) (by decide) h⟩
    have x_term : cs!"_term_perms" <:+ name → ¬cs!"_dir_perms" <:+ name ∧ ¬cs!"_lnk_file_perms" <:+ name ∧ ¬cs!"_chr_file_perms" <:+ name ∧ ¬cs!"_blk_file_perms" <:+ name ∧ ¬cs!"_sock_file_perms" <:+ name ∧ ¬cs!"_fifo_file_perms" <:+ name ∧ ¬cs!"_file_perms" <:+ name :=
      fun h => ⟨e _ _ (by decide) (by decide) (by decide) (by decide) h, e _ _ (by decide) (by decide) (by decide) (by decide) h, e _ _ (by decide) (by decide) (by decide) (by decide) h, e _ _ (by decide) (by decide) (by decide) (by decide) h, e _ _ (by decide) (by decide) (by decide) (by decide) h, e _ _ (by decide) (by decide) (by decide) (by decide) h, e _ _ (by decide) (by decide) (by decide) (by decide) h⟩
    have x_blk_file : cs!"_blk_file_perms" <:+ name → ¬cs!"_dir_perms" <:+ name ∧ ¬cs!"_lnk_file_perms" <:+ name ∧ ¬cs!"_chr_file_perms" <:+ name ∧ ¬cs!"_term_perms" <:+ name ∧ ¬cs!"_sock_file_perms" <:+ name ∧ ¬cs!"_fifo_file_perms" <:+ name :=
      fun h => ⟨e _ _ (by decide) (by decide) (by decide) (by decide) h, e _ _ (by decide) (by decide) (by decide) (by decide) h, e _ _ (by decide) (by decide) (by decide) (by decide) h, e _ _ (by decide) (by decide) (by decide) (by decide) h, e _ _ (by decide) (by decide) (by decide) (by decide) h, e _ _ (by decide) (by decide) (by decide) (by decide) h⟩
    have x_sock_file : cs!"_sock_file_perms" <:+ name → ¬cs!"_dir_perms" <:+ name ∧ ¬cs!"_lnk_file_perms" <:+ name ∧ ¬cs!"_chr_file_perms" <:+ name ∧ ¬cs!"_term_perms" <:+ name ∧ ¬cs!"_blk_file_perms" <:+ name ∧ ¬cs!"_fifo_file_perms" <:+ name :=
      fun h => ⟨e _ _ (by decide) (by decide) (by decide) (by decide) h, e _ _ (by decide) (by decide) (by decide) (by decide) h, e _ _ (by decide) (by decide) (by decide) (by decide) h, e _ _ (by decide) (by decide) (by decide) (by decide) h, e _ _ (by decide) (by decide) (by decide) (by decide) h, e _ _ (by decide) (by decide) (by decide) (by decide) h⟩
    have x_fifo_file : cs!"_fifo_file_perms" <:+ name → ¬cs!"_dir_perms" <:+ name ∧ ¬cs!"_lnk_file_perms" <:+ name ∧ ¬cs!"_chr_file_perms" <:+ name ∧ ¬cs!"_term_perms" <:+ name ∧ ¬cs!"_blk_file_perms" <:+ name ∧ ¬cs!"_sock_file_perms" <:+ name :=
      fun h => ⟨e _ _ (by decide) (by decide) (by decide) (by decide) h, e _ _ (by decide) (by decide) (by decide) (by decide) h, e _ _ (by decide) (by decide) (by decide) (by decide) h, e _ _ (by decide) (by decide) (by decide) (by decide) h, e _ _ (by decide) (by decide) (by decide) (by decide) h, e _ _ (by decide) (by decide) (by decide) (by decide) h⟩
    unfold macroCategory
    clear ex e
    simp only [← endsWith_iff] at *
    generalize endsWith name cs!"_dir_perms" = D at *
    generalize endsWith name cs!"_lnk_file_perms" = L at *
    generalize endsWith name cs!"_chr_file_perms" = C at *
    generalize endsWith name cs!"_term_perms" = T at *
    generalize endsWith name cs!"_blk_file_perms" = B at *
    generalize endsWith name cs!"_sock_file_perms" = S at *
    generalize endsWith name cs!"_fifo_file_perms" = F at *
    generalize endsWith name cs!"_file_perms" = X at *
    cases c <;> grind
  unfold ForClass classCategory
  simp only [strcmp_eq_zero]
  constructor
  · intro h
    rcases h with ⟨rfl, h⟩ | ⟨rfl, h⟩ | ⟨rfl, h⟩ | ⟨rfl, h⟩ | ⟨rfl, h⟩ | ⟨rfl, h⟩ | ⟨rfl, h⟩
    · exact ⟨.dir, by decide, (key _).mpr (by simp [h])⟩
    · exact ⟨.lnkFile, by decide, (key _).mpr (by simp [h])⟩
    · exact ⟨.chrFile, by decide, (key _).mpr (by simp [h])⟩
    · exact ⟨.blkFile, by decide, (key _).mpr (by simp [h])⟩
    · exact ⟨.sockFile, by decide, (key _).mpr (by simp [h])⟩
    · exact ⟨.fifoFile, by decide, (key _).mpr (by simp [h])⟩
    · exact ⟨.file, by decide, (key _).mpr (by simp [h])⟩
  · rintro ⟨c, h1, h2⟩
    rw [key] at h2
    repeat' split at h1
    all_goals simp at h1
    all_goals subst h1
    all_goals rename_i hc
    all_goals subst hc
    all_goals simp only [reduceCtorEq, false_and, true_and, or_false, false_or] at h2
    all_goals simp [h2]

/-! ## Loading -/

/-- The list element made from a macro definition, if it goes into the list `c`. -/
def loadOne (m : Maps) (c : Category) (e : Str × List Str) : Option PermMacro :=
  match computePermMask m e.2 ⟨0, 0⟩ with
  | .ub => none
  | .ok r =>
    if r.raw &&& Pm.uncovered = 0 ∧ macroCategory e.1 = some c then some ⟨e.1, r.raw⟩ else none

/-- The elements with `n` permissions. -/
def withCount (n : Nat) (l : List PermMacro) : List PermMacro :=
  l.filter fun x => bitCount x.maskRaw == n

/-- Ascending number of permissions. -/
def SortedByCount (l : List PermMacro) : Prop :=
  l.Pairwise fun a b => bitCount a.maskRaw ≤ bitCount b.maskRaw

theorem insertMacro_mem {t x : PermMacro} {l : List PermMacro} :
    x ∈ insertMacro t l ↔ x = t ∨ x ∈ l := by
  induction l with
  | nil => simp [insertMacro]
  | cons c l ih =>
    unfold insertMacro
    split
    · simp
    · simp only [List.mem_cons, ih]
      constructor
      · rintro (h | h | h) <;> simp [h]
      · rintro (h | h | h) <;> simp [h]

theorem insertMacro_sorted {t : PermMacro} {l : List PermMacro} (h : SortedByCount l) :
    SortedByCount (insertMacro t l) := by
  induction l with
  | nil => simp [insertMacro, SortedByCount]
  | cons c l ih =>
    unfold insertMacro
    rw [popcount_eq, popcount_eq]
    unfold SortedByCount at h ⊢
    rw [List.pairwise_cons] at h
    split
    · rename_i hlt
      rw [List.pairwise_cons, List.pairwise_cons]
      refine ⟨?_, h.1, h.2⟩
      intro x hx
      rcases List.mem_cons.mp hx with rfl | hx
      · omega
      · have := h.1 x hx; omega
    · rw [List.pairwise_cons]
      refine ⟨?_, ih h.2⟩
      intro x hx
      rcases insertMacro_mem.mp hx with rfl | hx
      · omega
      · exact h.1 x hx

theorem insertMacro_withCount {t : PermMacro} {l : List PermMacro} (h : SortedByCount l) (n : Nat) :
    withCount n (insertMacro t l) = withCount n l ++ withCount n [t] := by
  induction l with
  | nil => simp [insertMacro, withCount]
  | cons c l ih =>
    unfold SortedByCount at h
    rw [List.pairwise_cons] at h
    unfold insertMacro
    rw [popcount_eq, popcount_eq]
    split
    · rename_i hlt
      by_cases hn : bitCount t.maskRaw = n
      · have : withCount n (c :: l) = [] := by
          unfold withCount
          rw [List.filter_eq_nil_iff]
          intro x hx
          have : bitCount t.maskRaw < bitCount x.maskRaw := by
            rcases List.mem_cons.mp hx with rfl | hx
            · exact hlt
            · have := h.1 x hx; omega
          simp; omega
        rw [this]
        unfold withCount at this ⊢
        rw [List.filter_cons, this]
        simp [hn]
      · unfold withCount
        rw [List.filter_cons_of_neg (by simp [hn]), List.filter_cons_of_neg (a := t) (by simp [hn])]
        simp
    · have := ih h.2
      unfold withCount at this ⊢
      by_cases hc : bitCount c.maskRaw = n
      · rw [List.filter_cons_of_pos (by simp [hc]), this, List.filter_cons_of_pos (a := c) (by simp [hc])]
        rfl
      · rw [List.filter_cons_of_neg (by simp [hc]), this, List.filter_cons_of_neg (a := c) (by simp [hc])]

theorem loadAll_ok {m : Maps} (es : List (Str × List Str)) (lists lists' : Category → List PermMacro)
    (h : loadAll m es lists = .ok lists') (hs : ∀ c, SortedByCount (lists c)) :
    (∀ c, SortedByCount (lists' c)) ∧
    (∀ c n, withCount n (lists' c) = withCount n (lists c) ++ withCount n (es.filterMap (loadOne m c))) ∧
    ∀ e ∈ es, computePermMask m e.2 ⟨0, 0⟩ ≠ .ub := by
  induction es generalizing lists with
  | nil =>
    simp [loadAll] at h; subst h
    exact ⟨hs, fun c n => by simp [withCount], by simp⟩
  | cons e es ih =>
    obtain ⟨name, perms⟩ := e
    unfold loadAll at h
    split at h
    · simp at h
    · rename_i l1 h1
      unfold loadPermissionMacro at h1
      split at h1
      · simp at h1
      · rename_i r hr
        have hub : computePermMask m perms ⟨0, 0⟩ ≠ .ub := by rw [hr]; simp
        have skip : l1 = lists → (∀ c, loadOne m c (name, perms) = none) →
            (∀ c, SortedByCount (lists' c)) ∧
            (∀ c n, withCount n (lists' c) = withCount n (lists c) ++
              withCount n (((name, perms) :: es).filterMap (loadOne m c))) ∧
            ∀ e ∈ (name, perms) :: es, computePermMask m e.2 ⟨0, 0⟩ ≠ .ub := by
          rintro rfl hno
          obtain ⟨a, b, c⟩ := ih _ h hs
          refine ⟨a, ?_, ?_⟩
          · intro c' n
            rw [b, List.filterMap_cons_none (hno c')]
          · intro e he
            rcases List.mem_cons.mp he with rfl | he
            · exact hub
            · exact c e he
        split at h1
        · rename_i hu
          simp at h1
          refine skip h1.symm fun c => ?_
          simp only [loadOne, hr]
          exact if_neg fun hh => hu hh.1
        · rename_i hu
          have hu : r.raw &&& Pm.uncovered = 0 := by
            apply Classical.byContradiction; exact hu
          split at h1
          · rename_i hcat
            simp at h1
            refine skip h1.symm fun c => ?_
            simp only [loadOne, hr]
            exact if_neg fun hh => by rw [hcat] at hh; simp at hh
          · rename_i c0 hcat
            simp at h1
            have hs1 : ∀ c, SortedByCount (l1 c) := by
              intro c
              rw [← h1]
              simp only
              split
              · exact insertMacro_sorted (hs c0)
              · exact hs c
            obtain ⟨a, b, cc⟩ := ih _ h hs1
            refine ⟨a, ?_, ?_⟩
            · intro c n
              rw [b, ← h1]
              simp only
              by_cases hc : c = c0
              · subst hc
                rw [if_pos rfl, insertMacro_withCount (hs c)]
                have : loadOne m c (name, perms) = some ⟨name, r.raw⟩ := by
                  simp only [loadOne, hr]
                  exact if_pos ⟨hu, hcat⟩
                rw [List.filterMap_cons_some this, List.append_assoc]
                congr 1
                unfold withCount
                rw [← List.filter_append]
                rfl
              · rw [if_neg hc]
                have : loadOne m c (name, perms) = none := by
                  simp only [loadOne, hr]
                  exact if_neg fun hh => by
                    rw [hcat] at hh; simp at hh; exact hc hh.2.symm
                rw [List.filterMap_cons_none this]
            · intro e he
              rcases List.mem_cons.mp he with rfl | he
              · exact hub
              · exact cc e he

/-- The lists as they are after the first call. -/
structure Loaded (m : Maps) (lists : Category → List PermMacro) : Prop where
  sorted : ∀ c, SortedByCount (lists c)
  count : ∀ c n, withCount n (lists c) = withCount n (m.permmacros.filterMap (loadOne m c))
  ends : ∀ e ∈ m.permmacros, computePermMask m e.2 ⟨0, 0⟩ ≠ .ub

theorem loaded_of_init {m : Maps} {lists : Category → List PermMacro}
    (h : loadAll m m.permmacros (fun _ => []) = .ok lists) : Loaded m lists := by
  obtain ⟨a, b, c⟩ := loadAll_ok _ _ _ h (fun _ => List.Pairwise.nil)
  exact ⟨a, fun c n => by rw [b]; simp [withCount], c⟩

theorem loaded_mem {m : Maps} {lists : Category → List PermMacro} (h : Loaded m lists)
    (c : Category) (x : PermMacro) :
    x ∈ lists c ↔ ∃ e ∈ m.permmacros, loadOne m c e = some x := by
  have : x ∈ lists c ↔ x ∈ m.permmacros.filterMap (loadOne m c) := by
    have h1 := h.count c (bitCount x.maskRaw)
    have h2 : ∀ l, x ∈ withCount (bitCount x.maskRaw) l ↔ x ∈ l := by
      intro l; simp [withCount]
    rw [← h2, h1, h2]
  rw [this, List.mem_filterMap]

theorem loadOne_some {m : Maps} {c : Category} {e : Str × List Str} {x : PermMacro}
    (h : loadOne m c e = some x) :
    x.name = e.1 ∧ Holds x.maskRaw (Granted m e.2) ∧ (∀ q, Granted m e.2 q → q ∈ coveredNames) ∧
      macroCategory e.1 = some c := by
  unfold loadOne at h
  split at h
  · simp at h
  · rename_i r hr
    split at h
    · rename_i hc
      simp at h; subst h
      have hh : Holds r.raw (Granted m e.2) := (C23_union m e.2 r hr).1
      exact ⟨rfl, hh, (no_uncovered hh).mp hc.1, hc.2⟩
    · simp at h

theorem loadOne_of {m : Maps} {c : Category} {e : Str × List Str}
    (hub : computePermMask m e.2 ⟨0, 0⟩ ≠ .ub) (hcat : macroCategory e.1 = some c)
    (hc : ∀ q, Granted m e.2 q → q ∈ coveredNames) : ∃ x, loadOne m c e = some x := by
  cases hr : computePermMask m e.2 ⟨0, 0⟩ with
  | ub => exact absurd hr hub
  | ok r =>
    have hh : Holds r.raw (Granted m e.2) := (C23_union m e.2 r hr).1
    refine ⟨⟨e.1, r.raw⟩, ?_⟩
    simp only [loadOne, hr]
    exact if_pos ⟨(no_uncovered hh).mpr hc, hcat⟩

/-! ## C26 -/

open Classical in
/-- C26. When the lists are filled on the first call, the list for each class is in ascending
order of the number of permissions, and for every `n` its elements with `n` permissions are,
in the order of definition, the macros for this class that grant exactly `n` permissions, all
of them known. -/
theorem C26_lists {m : Maps} {lists : Category → List PermMacro}
    (h : loadAll m m.permmacros (fun _ => []) = .ok lists) (cls : Str) (c : Category)
    (hcls : classCategory cls = some c) :
    (lists c).Pairwise (fun a b => popcount a.maskRaw ≤ popcount b.maskRaw) ∧
    ∀ n, ((lists c).filter fun x => popcount x.maskRaw == n).map (·.name) =
      (m.permmacros.filter fun e => decide (ForClass e.1 cls ∧
        (∀ q, Granted m e.2 q → q ∈ coveredNames) ∧
        (namesWith (Granted m e.2)).length = n)).map (·.1) := by
  have hl := loaded_of_init h
  simp only [popcount_eq]
  refine ⟨hl.sorted c, ?_⟩
  intro n
  have h1 := hl.count c n
  unfold withCount at h1
  rw [h1]
  have : ∀ es : List (Str × List Str), (∀ e ∈ es, computePermMask m e.2 ⟨0, 0⟩ ≠ .ub) →
      ((es.filterMap (loadOne m c)).filter fun x => bitCount x.maskRaw == n).map (·.name) =
      (es.filter fun e => decide (ForClass e.1 cls ∧
        (∀ q, Granted m e.2 q → q ∈ coveredNames) ∧
        (namesWith (Granted m e.2)).length = n)).map (·.1) := by
    intro es hes
    induction es with
    | nil => rfl
    | cons e es ih =>
      have ih := ih fun x hx => hes x (by simp [hx])
      have hub := hes e (by simp)
      cases ho : loadOne m c e with
      | none =>
        rw [List.filterMap_cons_none ho, List.filter_cons_of_neg, ih]
        simp only [decide_eq_true_iff]
        rintro ⟨h2, h3, _⟩
        obtain ⟨c', h4, h5⟩ := (forClass_iff _ _).mp h2
        rw [hcls] at h4; simp at h4; subst h4
        obtain ⟨x, hx⟩ := loadOne_of hub h5 h3
        rw [ho] at hx; simp at hx
      | some x =>
        obtain ⟨h2, h3, h4, h5⟩ := loadOne_some ho
        have hcount : bitCount x.maskRaw = (namesWith (Granted m e.2)).length := by
          apply bitCount_names
          · intro q hq; exact holds_covered h3 hq
          · intro i hi
            obtain ⟨q, h6, h7⟩ := (h3 i).mp hi
            exact ⟨q, h4 q h6, h7⟩
        rw [List.filterMap_cons_some ho]
        by_cases hn : bitCount x.maskRaw = n
        · rw [List.filter_cons_of_pos (by simp [hn]), List.filter_cons_of_pos]
          · simp only [List.map_cons, ih, h2]
          · simp only [decide_eq_true_iff]
            exact ⟨(forClass_iff _ _).mpr ⟨c, hcls, h5⟩, h4, by rw [← hcount]; exact hn⟩
        · rw [List.filter_cons_of_neg (by simp [hn]), List.filter_cons_of_neg, ih]
          simp only [decide_eq_true_iff]
          rintro ⟨_, _, h6⟩
          exact hn (by rw [hcount]; exact h6)
  exact this m.permmacros hl.ends

/-! ## Selection -/

/-- `a` is not better than `b`. -/
def NotBetter (raw : Mask) (a b : PermMacro) : Prop :=
  bitCount (a.maskRaw &&& raw) < bitCount (b.maskRaw &&& raw) ∨
  (bitCount (a.maskRaw &&& raw) = bitCount (b.maskRaw &&& raw) ∧
    bitCount (b.maskRaw &&& ~~~raw) ≤ bitCount (a.maskRaw &&& ~~~raw))

/-- The conditions under which the loop considers a macro. -/
def Candidate (m : Maps) (ps : List Str) (raw ext : Mask) (x : PermMacro) : Prop :=
  x.maskRaw &&& ~~~ext = 0 ∧ 2 ≤ bitCount (x.maskRaw &&& raw) ∧
    ∃ n, matchedCount m (x.maskRaw &&& raw) ps 0 = .ok n ∧ 2 ≤ n

/-- The state of the loop after the elements in `done`. -/
def SelectInv (m : Maps) (ps : List Str) (raw ext : Mask) (done : List PermMacro) : Option Best → Prop
  | none => ∀ x ∈ done, ¬Candidate m ps raw ext x
  | some b => ∃ pre e post, done = pre ++ e :: post ∧
      b = ⟨e.name, bitCount (e.maskRaw &&& raw), bitCount (e.maskRaw &&& ~~~raw), e.maskRaw⟩ ∧
      Candidate m ps raw ext e ∧ (∀ x ∈ done, Candidate m ps raw ext x → NotBetter raw x e) ∧
      ∀ x ∈ post, Candidate m ps raw ext x → ¬NotBetter raw e x

theorem inv_skip {m : Maps} {ps : List Str} {raw ext : Mask} {done : List PermMacro}
    {best : Option Best} {x : PermMacro} (h : SelectInv m ps raw ext done best)
    (hx : ∀ b e, best = some b → Candidate m ps raw ext x → b = ⟨e.name, bitCount (e.maskRaw &&& raw),
      bitCount (e.maskRaw &&& ~~~raw), e.maskRaw⟩ → NotBetter raw x e ∧ ¬NotBetter raw e x)
    (hn : best = none → ¬Candidate m ps raw ext x) : SelectInv m ps raw ext (done ++ [x]) best := by
  cases best with
  | none =>
    intro y hy
    rcases List.mem_append.mp hy with hy | hy
    · exact h y hy
    · simp at hy; subst hy; exact hn rfl
  | some b =>
    obtain ⟨pre, e, post, h1, h2, h3, h4, h5⟩ := h
    refine ⟨pre, e, post ++ [x], by simp [h1], h2, h3, ?_, ?_⟩
    · intro y hy hc
      rcases List.mem_append.mp hy with hy | hy
      · exact h4 y hy hc
      · simp at hy; subst hy; exact (hx b e rfl hc h2).1
    · intro y hy hc
      rcases List.mem_append.mp hy with hy | hy
      · exact h5 y hy hc
      · simp at hy; subst hy; exact (hx b e rfl hc h2).2

theorem selectBest_ok {m : Maps} {ps : List Str} {raw ext : Mask} (l : List PermMacro)
    (done : List PermMacro) (best : Option Best)
    (hl : ∀ x ∈ l, ∃ n, matchedCount m (x.maskRaw &&& raw) ps 0 = .ok n)
    (h : SelectInv m ps raw ext done best) :
    ∃ best', selectBest m ps raw ext l best = .ok best' ∧ SelectInv m ps raw ext (done ++ l) best' := by
  induction l generalizing done best with
  | nil => exact ⟨best, rfl, by simpa using h⟩
  | cons x l ih =>
    have hl' : ∀ y ∈ l, ∃ n, matchedCount m (y.maskRaw &&& raw) ps 0 = .ok n :=
      fun y hy => hl y (by simp [hy])
    have next : ∀ b, SelectInv m ps raw ext (done ++ [x]) b →
        ∃ best', selectBest m ps raw ext l b = .ok best' ∧
          SelectInv m ps raw ext (done ++ x :: l) best' := by
      intro b hb
      obtain ⟨b', h1, h2⟩ := ih (done ++ [x]) b hl' hb
      exact ⟨b', h1, by simpa using h2⟩
    unfold selectBest
    simp only [popcount_eq]
    split
    · rename_i h1
      exact next best (inv_skip h (fun _ _ _ hc _ => absurd hc.1 h1) (fun _ hc => h1 hc.1))
    · rename_i h1
      have h1 : x.maskRaw &&& ~~~ext = 0 := by apply Classical.byContradiction; exact h1
      split
      · rename_i h2
        exact next best (inv_skip h (fun _ _ _ hc _ => absurd hc.2.1 (by omega))
          (fun _ hc => absurd hc.2.1 (by omega)))
      · rename_i h2
        split
        · rename_i h3
          refine next best (inv_skip h ?_ ?_)
          · rintro b e rfl _ rfl
            simp only [bestCoverage] at h3
            exact ⟨Or.inl h3, fun hn => by rcases hn with hn | hn <;> omega⟩
          · rintro rfl; simp [bestCoverage] at h3
        · rename_i h3
          split
          · rename_i h4
            refine next best (inv_skip h ?_ ?_)
            · rintro b e rfl _ rfl
              simp only [bestCoverage, bestExtending] at h4
              exact ⟨Or.inr ⟨h4.1, by omega⟩, fun hn => by rcases hn with hn | hn <;> omega⟩
            · rintro rfl; simp only [bestCoverage] at h4; omega
          · rename_i h4
            obtain ⟨n, hn⟩ := hl x (by simp)
            rw [hn]
            simp only
            split
            · rename_i h5
              refine next best (inv_skip h ?_ ?_)
              · rintro b e _ ⟨_, _, n', h6, h7⟩ _
                rw [hn] at h6; simp at h6; omega
              · rintro _ ⟨_, _, n', h6, h7⟩
                rw [hn] at h6; simp at h6; omega
            · rename_i h5
              refine next _ ⟨done, x, [], rfl, rfl, ⟨h1, by omega, n, hn, by omega⟩, ?_, by simp⟩
              intro y hy hc
              rcases List.mem_append.mp hy with hy | hy
              · cases best with
                | none => exact absurd hc (h y hy)
                | some b =>
                  obtain ⟨pre, e, post, _, rfl, _, h6, _⟩ := h
                  have := h6 y hy hc
                  simp only [bestCoverage, bestExtending] at h3 h4
                  unfold NotBetter at this ⊢
                  omega
              · simp at hy; subst hy; exact Or.inr ⟨rfl, Nat.le_refl _⟩

/-! ## From lists to definitions -/

theorem eligible_iff {m : Maps} {lists : Category → List PermMacro} (hl : Loaded m lists)
    {cls : Str} {c : Category} (hcls : classCategory cls = some c) {ps : List Str} {r : Masks}
    (hr : computePermMask m ps ⟨0, 0⟩ = .ok r) (e : Str × List Str) (he : e ∈ m.permmacros) :
    Eligible m cls ps e ↔
      ∃ x, loadOne m c e = some x ∧ Candidate m ps r.raw (extendSpecial r.ext) x := by
  obtain ⟨hraw, hext⟩ := C23_union m ps r hr
  have hres := extendSpecial_covered (ext_covered hext)
  have tail : ∀ x, loadOne m c e = some x → (∀ q, Granted m e.2 q → q ∈ coveredNames) →
      ((∀ q, Granted m e.2 q → Reasonable m ps q) ↔ x.maskRaw &&& ~~~(extendSpecial r.ext) = 0) ∧
      (2 ≤ (covered m ps e.2).length ↔ 2 ≤ bitCount (x.maskRaw &&& r.raw)) ∧
      (2 ≤ (replaced m ps e.2).length ↔
        ∃ n, matchedCount m (x.maskRaw &&& r.raw) ps 0 = .ok n ∧ 2 ≤ n) := by
    intro x hx hc
    obtain ⟨_, h2, _, _⟩ := loadOne_some hx
    refine ⟨?_, ?_, ?_⟩
    · rw [and_not_eq_zero]
      constructor
      · intro h i hi
        obtain ⟨q, h3, h4⟩ := (h2 i).mp hi
        subst h4
        exact (hres q (hc q h3)).mpr (h q h3)
      · intro h q hq
        exact (hres q (hc q hq)).mp (h _ ((h2 _).mpr ⟨q, hq, rfl⟩))
    · rw [bitCount_and h2 hraw hc]; rfl
    · rw [matchedCount_ok hr hraw h2 hc ps (fun _ h => h)]
      simp
  constructor
  · intro h
    obtain ⟨c', h1, h2⟩ := (forClass_iff _ _).mp h.forClass
    rw [hcls] at h1; simp at h1; subst h1
    obtain ⟨x, hx⟩ := loadOne_of (hl.ends e he) h2 h.onlyCovered
    obtain ⟨t1, t2, t3⟩ := tail x hx h.onlyCovered
    exact ⟨x, hx, t1.mp h.reasonable, t2.mp h.covers, t3.mp h.replaces⟩
  · rintro ⟨x, hx, h1, h2, h3⟩
    obtain ⟨_, _, hc, hcat⟩ := loadOne_some hx
    obtain ⟨t1, t2, t3⟩ := tail x hx hc
    exact ⟨he, (forClass_iff _ _).mpr ⟨c, hcls, hcat⟩, hc, t1.mpr h1, t2.mpr h2, t3.mpr h3⟩

theorem measures {m : Maps} {c : Category} {ps : List Str} {r : Masks}
    (hr : computePermMask m ps ⟨0, 0⟩ = .ok r) {e : Str × List Str} {x : PermMacro}
    (hx : loadOne m c e = some x) :
    (covered m ps e.2).length = bitCount (x.maskRaw &&& r.raw) ∧
    (added m ps e.2).length = bitCount (x.maskRaw &&& ~~~r.raw) := by
  obtain ⟨hraw, _⟩ := C23_union m ps r hr
  obtain ⟨_, h2, hc, _⟩ := loadOne_some hx
  rw [bitCount_and h2 hraw hc, bitCount_and_not h2 hraw hc]
  exact ⟨rfl, rfl⟩

/-- The element selected by the loop stands for the chosen macro. -/
theorem chosen_of_select {m : Maps} {lists : Category → List PermMacro} (hl : Loaded m lists)
    {cls : Str} {c : Category} (hcls : classCategory cls = some c) {ps : List Str} {r : Masks}
    (hr : computePermMask m ps ⟨0, 0⟩ = .ok r) {b : Best}
    (h : SelectInv m ps r.raw (extendSpecial r.ext) (lists c) (some b)) :
    ∃ e x, Chosen m cls ps e ∧ loadOne m c e = some x ∧ b.name = e.1 ∧ b.maskRaw = x.maskRaw := by
  obtain ⟨pre, x, post, h1, h2, h3, h4, h5⟩ := h
  have hcnt := hl.count c (bitCount x.maskRaw)
  rw [h1] at hcnt
  have hsplit : withCount (bitCount x.maskRaw) (pre ++ x :: post) =
      withCount (bitCount x.maskRaw) pre ++ x :: withCount (bitCount x.maskRaw) post := by
    simp [withCount]
  rw [hsplit] at hcnt
  unfold withCount at hcnt
  obtain ⟨e1, e2, he, hf1, hf2⟩ := List.filter_eq_append_iff.mp hcnt.symm
  obtain ⟨l1, l2, he2, _, _, hf3⟩ := List.filter_eq_cons_iff.mp hf2
  obtain ⟨p1, p2, hp, hm1, hm2⟩ := List.filterMap_eq_append_iff.mp he
  rw [he2] at hm2
  obtain ⟨p3, p4, hp2, hm3, hm4⟩ := List.filterMap_eq_append_iff.mp hm2
  obtain ⟨q1, a, q2, hp3, _, hxa, hm5⟩ := List.filterMap_eq_cons_iff.mp hm4
  have hperm : m.permmacros = (p1 ++ p3 ++ q1) ++ a :: q2 := by rw [hp, hp2, hp3]; simp
  have ha : a ∈ m.permmacros := by rw [hperm]; simp
  have hela : Eligible m cls ps a := (eligible_iff hl hcls hr a ha).mpr ⟨x, hxa, h3⟩
  have hma := measures (c := c) hr hxa
  -- every eligible macro is not better
  have hbest : ∀ e', Eligible m cls ps e' → ∃ y, loadOne m c e' = some y ∧
      Candidate m ps r.raw (extendSpecial r.ext) y ∧ NotBetter r.raw y x := by
    intro e' hel
    obtain ⟨y, hy, hc⟩ := (eligible_iff hl hcls hr e' hel.known).mp hel
    exact ⟨y, hy, hc, h4 y ((loaded_mem hl c y).mpr ⟨e', hel.known, hy⟩) hc⟩
  refine ⟨a, x, ⟨p1 ++ p3 ++ q1, q2, hperm, ⟨hela, ?_⟩, ?_⟩, hxa, ?_, ?_⟩
  · intro e' hel
    obtain ⟨y, hy, _, hnb⟩ := hbest e' hel
    have hme := measures (c := c) hr hy
    rw [hma.1, hma.2, hme.1, hme.2]
    exact hnb
  · intro e' he' hb
    obtain ⟨y, hy, hc, hnb⟩ := hbest e' hb.1
    have hme := measures (c := c) hr hy
    have hback := hb.2 a hela
    rw [hma.1, hma.2, hme.1, hme.2] at hback
    have hcount : bitCount y.maskRaw = bitCount x.maskRaw := by
      rw [← bitCount_split y.maskRaw r.raw, ← bitCount_split x.maskRaw r.raw]
      unfold NotBetter at hnb
      omega
    have hy2 : y ∈ l2 := by
      rw [← hm5]; exact List.mem_filterMap.mpr ⟨e', he', hy⟩
    have hy3 : y ∈ post := by
      have : y ∈ List.filter (fun x_1 => bitCount x_1.maskRaw == bitCount x.maskRaw) l2 :=
        List.mem_filter.mpr ⟨hy2, by simp [hcount]⟩
      rw [hf3] at this
      exact (List.mem_filter.mp this).1
    exact h5 y hy3 hc hback
  · rw [h2]; exact (loadOne_some hxa).1
  · rw [h2]

theorem chosen_unique {m : Maps} {cls : Str} {ps : List Str} {e e' : Str × List Str}
    (h : Chosen m cls ps e) (h' : Chosen m cls ps e') : e = e' := by
  obtain ⟨pre, post, h1, h2, h3⟩ := h
  obtain ⟨pre', post', h1', h2', h3'⟩ := h'
  rw [h1] at h1'
  rcases List.append_eq_append_iff.mp h1' with ⟨as, ha, hb⟩ | ⟨as, ha, hb⟩
  · cases as with
    | nil => simp at hb; exact hb.1
    | cons x as =>
      simp at hb
      exact absurd h2' (h3 e' (by rw [hb.2]; simp))
  · cases as with
    | nil => simp at hb; exact hb.1.symm
    | cons x as =>
      simp at hb
      exact absurd h2 (h3' e (by rw [hb.2]; simp))

/-! ## The check -/

/-- The static state before the first or a later call. -/
def PmStateOk (m : Maps) (st : PmState) : Prop :=
  st = PmState.init ∨ (st.initialized = true ∧ loadAll m m.permmacros (fun _ => []) = .ok st.lists)

/-- Every call leaves a state in which the theorems below apply to the next call. -/
theorem C24_state_ok {m : Maps} {st st' : PmState} {cls : Str} {ps : List Str} {r : Option Str}
    (hst : PmStateOk m st) (h : permmacroCheck m st cls ps = .ok (st', r)) :
    st'.initialized = true ∧ loadAll m m.permmacros (fun _ => []) = .ok st'.lists := by
  unfold permmacroCheck at h
  have hini : ∀ s, pmInitialize m st = .ok s →
      s.initialized = true ∧ loadAll m m.permmacros (fun _ => []) = .ok s.lists := by
    intro s hs
    unfold pmInitialize at hs
    rcases hst with rfl | ⟨h1, h2⟩
    · simp only [PmState.init, Bool.false_eq_true, if_false] at hs
      split at hs
      · simp at hs
      · rename_i l hl
        simp at hs; subst hs
        exact ⟨rfl, hl⟩
    · rw [h1] at hs
      simp at hs; subst hs
      exact ⟨h1, h2⟩
  cases hi : pmInitialize m st with
  | ub => rw [hi] at h; simp at h
  | ok s =>
    rw [hi] at h
    simp only [Res.bind_ok] at h
    have := hini s hi
    split at h
    · simp at h; rw [← h.1]; exact this
    · rename_i c _
      cases hc : permmacroCheckIn m (s.lists c) ps with
      | ub => rw [hc] at h; simp at h
      | ok v => rw [hc] at h; simp at h; rw [← h.1]; exact this

/-- What `permmacro_check` returns, for a loaded list. -/
theorem permmacroCheckIn_spec {m : Maps} {lists : Category → List PermMacro} (hl : Loaded m lists)
    {cls : Str} {c : Category} (hcls : classCategory cls = some c) {ps : List Str}
    {res : Option Str} (h : permmacroCheckIn m (lists c) ps = .ok res) :
    (∀ e, Chosen m cls ps e → res = if e.1 ∈ ps then none else some (suggestion m ps e)) ∧
    ((∃ e, Eligible m cls ps e) → ∃ e, Chosen m cls ps e) ∧
    ((¬∃ e, Eligible m cls ps e) → res = none) := by
  unfold permmacroCheckIn at h
  cases hr : computePermMask m ps ⟨0, 0⟩ with
  | ub => rw [hr] at h; simp at h
  | ok r =>
    rw [hr] at h
    simp only [Res.bind_ok] at h
    obtain ⟨hraw, hext⟩ := C23_union m ps r hr
    have hmc : ∀ x ∈ lists c, ∃ n, matchedCount m (x.maskRaw &&& r.raw) ps 0 = .ok n := by
      intro x hx
      obtain ⟨e, _, he⟩ := (loaded_mem hl c x).mp hx
      obtain ⟨_, h2, h3, _⟩ := loadOne_some he
      exact ⟨_, matchedCount_ok hr hraw h2 h3 ps (fun _ h => h) 0⟩
    obtain ⟨best, hsel, hinv⟩ := selectBest_ok (ext := extendSpecial r.ext) (lists c) [] none hmc
      (by intro x hx; simp at hx)
    rw [List.nil_append] at hinv
    have noneCase : best = none → ¬∃ e, Eligible m cls ps e := by
      rintro rfl ⟨e, he⟩
      obtain ⟨x, hx, hc⟩ := (eligible_iff hl hcls hr e he.known).mp he
      exact hinv x ((loaded_mem hl c x).mpr ⟨e, he.known, hx⟩) hc
    by_cases hpop : popcount (r.raw &&& ~~~Pm.uncovered) < 2
    · rw [if_pos hpop] at h
      simp at h; subst h
      have hno : ¬∃ e, Eligible m cls ps e := by
        rintro ⟨e, he⟩
        obtain ⟨x, hx, hc⟩ := (eligible_iff hl hcls hr e he.known).mp he
        obtain ⟨_, h2, h3, _⟩ := loadOne_some hx
        have hle : bitCount (x.maskRaw &&& r.raw) ≤ bitCount (r.raw &&& ~~~Pm.uncovered) := by
          unfold bitCount
          apply List.Sublist.length_le
          have hq : (List.range 32).filter ((x.maskRaw &&& r.raw).getLsbD ·) =
              ((List.range 32).filter ((r.raw &&& ~~~Pm.uncovered).getLsbD ·)).filter
                ((x.maskRaw &&& r.raw).getLsbD ·) := by
            rw [List.filter_filter]
            apply List.filter_congr
            intro i hi
            cases hb : (x.maskRaw &&& r.raw).getLsbD i with
            | false => rfl
            | true =>
              rw [BitVec.getLsbD_and, Bool.and_eq_true] at hb
              obtain ⟨q, h4, h5⟩ := (h2 i).mp hb.1
              have hne := permBit_ne_31 q (h3 q h4)
              have : i < 32 := List.mem_range.mp hi
              have hu : Pm.uncovered.getLsbD i = false := by
                rw [uncovered_bit]
                apply decide_eq_false
                intro h6; exact hne (by rw [h5]; exact h6.symm)
              rw [BitVec.getLsbD_and, BitVec.getLsbD_not, hb.2, hu]
              simp [this]
          rw [hq]
          exact List.filter_sublist
        rw [popcount_eq] at hpop
        have := hc.2.1
        omega
      refine ⟨?_, fun hh => absurd hh hno, fun _ => rfl⟩
      rintro e ⟨_, _, _, hb, _⟩
      exact absurd ⟨e, hb.1⟩ hno
    · rw [if_neg hpop, hsel] at h
      simp only [Res.bind_ok, Res.pure_eq] at h
      cases best with
      | none =>
        simp at h; subst h
        have hno := noneCase rfl
        refine ⟨?_, fun hh => absurd hh hno, fun _ => rfl⟩
        rintro e ⟨_, _, _, hb, _⟩
        exact absurd ⟨e, hb.1⟩ hno
      | some b =>
        obtain ⟨e, x, hch, hx, hname, hmask⟩ := chosen_of_select hl hcls hr hinv
        obtain ⟨_, h2, h3, _⟩ := loadOne_some hx
        have hres : res = if e.1 ∈ ps then none else some (suggestion m ps e) := by
          simp only at h
          by_cases hin : e.1 ∈ ps
          · rw [if_pos (by rw [hname, strInSl_iff]; exact hin)] at h
            simp at h; rw [if_pos hin]; exact h.symm
          · rw [if_neg (by rw [hname, strInSl_iff]; exact hin)] at h
            rw [if_neg hin]
            have hadd : maskToStr (b.maskRaw &&& ~~~r.raw) = .ok (bracedOrNone (added m ps e.2)) := by
              apply maskToStr_ok
              · intro q hq
                rw [hmask, BitVec.getLsbD_and, Bool.and_eq_true, holds_covered h2 hq, BitVec.getLsbD_not]
                have h5 := holds_covered hraw hq
                refine and_congr Iff.rfl ?_
                simp only [permBit_lt q, decide_true, Bool.true_and, Bool.not_eq_true']
                rw [← Bool.not_eq_true, h5]
              · intro i hi
                rw [hmask, BitVec.getLsbD_and, Bool.and_eq_true] at hi
                obtain ⟨q, h4, h5⟩ := (h2 i).mp hi.1
                exact ⟨q, h3 q h4, h5⟩
            have hmat := matchedStr_ok hr hraw h2 h3
            rw [← hmask] at hmat
            rw [hadd, hmat] at h
            simp only [Res.bind_ok] at h
            simp at h
            rw [← h, hname]
            simp [suggestion]
        refine ⟨?_, fun _ => ⟨e, hch⟩, fun hno => ?_⟩
        · intro e' he'
          rw [chosen_unique he' hch]; exact hres
        · obtain ⟨_, _, _, hb, _⟩ := hch
          exact absurd ⟨e, hb.1⟩ hno

/-- What `permmacro_check` returns. -/
theorem permmacroCheck_spec {m : Maps} {st st' : PmState} (hst : PmStateOk m st) {cls : Str}
    {ps : List Str} {res : Option Str} (h : permmacroCheck m st cls ps = .ok (st', res)) :
    (∀ e, Chosen m cls ps e → res = if e.1 ∈ ps then none else some (suggestion m ps e)) ∧
    ((∃ e, Eligible m cls ps e) → ∃ e, Chosen m cls ps e) ∧
    ((¬∃ e, Eligible m cls ps e) → res = none) := by
  have hst' := C24_state_ok hst h
  unfold permmacroCheck at h
  cases hi : pmInitialize m st with
  | ub => rw [hi] at h; simp at h
  | ok s =>
    rw [hi] at h
    simp only [Res.bind_ok] at h
    split at h
    · rename_i hcls
      simp at h
      have hno : ¬∃ e, Eligible m cls ps e := by
        rintro ⟨e, he⟩
        obtain ⟨c, h1, _⟩ := (forClass_iff _ _).mp he.forClass
        rw [hcls] at h1; simp at h1
      refine ⟨?_, fun hh => absurd hh hno, fun _ => h.2.symm⟩
      rintro e ⟨_, _, _, hb, _⟩
      exact absurd ⟨e, hb.1⟩ hno
    · rename_i c hcls
      cases hc : permmacroCheckIn m (s.lists c) ps with
      | ub => rw [hc] at h; simp at h
      | ok v =>
        rw [hc] at h
        simp at h
        obtain ⟨rfl, rfl⟩ := h
        exact permmacroCheckIn_spec (loaded_of_init hst'.2) hcls hc

/-- C24. Whenever a macro is suggested, it is eligible (known, for the class of the rule, made
only of known permissions that are granted or reasonable, covering at least two permissions
and replacing at least two entries), it is not yet used in the rule, and the message names
exactly the entries it covers completely and the permissions it would add. -/
theorem C24_suggestion_sound {m : Maps} {st st' : PmState} (hst : PmStateOk m st) {cls : Str}
    {ps : List Str} {msg : Str} (h : permmacroCheck m st cls ps = .ok (st', some msg)) :
    ∃ e, Eligible m cls ps e ∧ e.1 ∉ ps ∧ msg = suggestion m ps e := by
  obtain ⟨h1, h2, h3⟩ := permmacroCheck_spec hst h
  by_cases hex : ∃ e, Eligible m cls ps e
  · obtain ⟨e, he⟩ := h2 hex
    have h4 := h1 e he
    by_cases hin : e.1 ∈ ps
    · rw [if_pos hin] at h4; simp at h4
    · rw [if_neg hin] at h4
      simp at h4
      obtain ⟨_, _, _, hb, _⟩ := he
      exact ⟨e, hb.1, hin, h4⟩
  · have := h3 hex; simp at this

/-- C25. A suggestion is made iff there is an eligible macro and the last defined of the best
ones is not used in the rule yet; it is this one that is suggested. -/
theorem C25_suggestion_best {m : Maps} {st st' : PmState} (hst : PmStateOk m st) {cls : Str}
    {ps : List Str} {res : Option Str} (h : permmacroCheck m st cls ps = .ok (st', res)) :
    (∀ e, Chosen m cls ps e → res = if e.1 ∈ ps then none else some (suggestion m ps e)) ∧
    ((∃ e, Eligible m cls ps e) ↔ ∃ e, Chosen m cls ps e) ∧
    (res.isSome ↔ ∃ e, Chosen m cls ps e ∧ e.1 ∉ ps) := by
  obtain ⟨h1, h2, h3⟩ := permmacroCheck_spec hst h
  refine ⟨h1, ⟨h2, ?_⟩, ?_, ?_⟩
  · rintro ⟨e, _, _, _, hb, _⟩; exact ⟨e, hb.1⟩
  · intro hs
    by_cases hex : ∃ e, Eligible m cls ps e
    · obtain ⟨e, he⟩ := h2 hex
      refine ⟨e, he, ?_⟩
      intro hin
      rw [h1 e he, if_pos hin] at hs; simp at hs
    · rw [h3 hex] at hs; simp at hs
  · rintro ⟨e, he, hin⟩
    rw [h1 e he, if_neg hin]; rfl

/-- C24. The check never crashes if no macro definition is circular. -/
theorem C24_no_crash {m : Maps} {st : PmState} (hst : PmStateOk m st) (cls : Str) (ps : List Str)
    (hc : ∀ c, ¬OnCycle m c) : ∃ st' res, permmacroCheck m st cls ps = .ok (st', res) := by
  have ends : ∀ qs acc, computePermMask m qs acc ≠ .ub := by
    intro qs acc
    rw [C23_terminates_iff]
    rintro ⟨_, _, c, _, h⟩
    exact hc c h
  have load : ∀ es lists, ∃ l, loadAll m es lists = .ok l := by
    intro es
    induction es with
    | nil => intro lists; exact ⟨lists, rfl⟩
    | cons e es ih =>
      intro lists
      have : ∃ l1, loadPermissionMacro m lists e.1 e.2 = .ok l1 := by
        unfold loadPermissionMacro
        cases hr : computePermMask m e.2 ⟨0, 0⟩ with
        | ub => exact absurd hr (ends _ _)
        | ok r =>
          simp only
          repeat' split
          all_goals exact ⟨_, rfl⟩
      obtain ⟨l1, h1⟩ := this
      unfold loadAll
      simp only [h1]
      exact ih l1
  unfold permmacroCheck
  have hini : ∃ s, pmInitialize m st = .ok s ∧ loadAll m m.permmacros (fun _ => []) = .ok s.lists := by
    unfold pmInitialize
    rcases hst with rfl | ⟨h1, h2⟩
    · obtain ⟨l, hl⟩ := load m.permmacros (fun _ => [])
      exact ⟨⟨true, l⟩, by simp [PmState.init, hl], hl⟩
    · exact ⟨st, by simp [h1], h2⟩
  obtain ⟨s, hs, hload⟩ := hini
  have hl := loaded_of_init hload
  rw [hs]
  simp only [Res.bind_ok]
  split
  · exact ⟨_, _, rfl⟩
  · rename_i c hcls
    suffices ∃ res, permmacroCheckIn m (s.lists c) ps = .ok res by
      obtain ⟨res, hres⟩ := this
      exact ⟨s, res, by rw [hres]; rfl⟩
    unfold permmacroCheckIn
    cases hr : computePermMask m ps ⟨0, 0⟩ with
    | ub => exact absurd hr (ends _ _)
    | ok r =>
      simp only [Res.bind_ok]
      obtain ⟨hraw, hext⟩ := C23_union m ps r hr
      split
      · exact ⟨_, rfl⟩
      · have hmc : ∀ x ∈ s.lists c, ∃ n, matchedCount m (x.maskRaw &&& r.raw) ps 0 = .ok n := by
          intro x hx
          obtain ⟨e, _, he⟩ := (loaded_mem hl c x).mp hx
          obtain ⟨_, h2, h3, _⟩ := loadOne_some he
          exact ⟨_, matchedCount_ok hr hraw h2 h3 ps (fun _ h => h) 0⟩
        obtain ⟨best, hsel, hinv⟩ := selectBest_ok (ext := extendSpecial r.ext) (s.lists c) [] none hmc
          (by intro x hx; simp at hx)
        rw [List.nil_append] at hinv
        rw [hsel]
        simp only [Res.bind_ok]
        cases best with
        | none => exact ⟨_, rfl⟩
        | some b =>
          simp only
          split
          · exact ⟨_, rfl⟩
          · obtain ⟨e, x, hch, hx, hname, hmask⟩ := chosen_of_select hl hcls hr hinv
            obtain ⟨_, h2, h3, _⟩ := loadOne_some hx
            have hadd : maskToStr (b.maskRaw &&& ~~~r.raw) = .ok (bracedOrNone (added m ps e.2)) := by
              apply maskToStr_ok
              · intro q hq
                rw [hmask, BitVec.getLsbD_and, Bool.and_eq_true, holds_covered h2 hq, BitVec.getLsbD_not]
                have h5 := holds_covered hraw hq
                refine and_congr Iff.rfl ?_
                simp only [permBit_lt q, decide_true, Bool.true_and, Bool.not_eq_true']
                rw [← Bool.not_eq_true, h5]
              · intro i hi
                rw [hmask, BitVec.getLsbD_and, Bool.and_eq_true] at hi
                obtain ⟨q, h4, h5⟩ := (h2 i).mp hi.1
                exact ⟨q, h3 q h4, h5⟩
            have hmat := matchedStr_ok hr hraw h2 h3
            rw [← hmask] at hmat
            rw [hadd, hmat]
            simp only [Res.bind_ok]
            exact ⟨_, rfl⟩

/-! ## Examples -/

/-- Some macros of the reference policy. -/
def pmExample2 : Maps :=
  { permmacros :=
      [(cs!"getattr_file_perms", [cs!"getattr"]),
       (cs!"read_file_perms", [cs!"getattr", cs!"open", cs!"read", cs!"lock", cs!"ioctl"]),
       (cs!"mmap_read_file_perms", [cs!"read_file_perms", cs!"map"]),
       (cs!"search_dir_perms", [cs!"getattr", cs!"search", cs!"open"])] }

example : (match permmacroCheck pmExample2 .init cs!"file" [cs!"read", cs!"open", cs!"getattr", cs!"write"] with
    | .ok r => r.2 == some (cs!"Suggesting permission macro: read_file_perms (replacing { read open getattr }, would add { ioctl lock })")
    | .ub => false) = true := by decide +kernel

/-- The macro in use is the best one: no suggestion. -/
example : (match permmacroCheck pmExample2 .init cs!"file" [cs!"read_file_perms", cs!"getattr"] with
    | .ok r => r.2 == none
    | .ub => false) = true := by decide +kernel

/-- The comment in perm_macro.c:430 says "extend setattr on create AND write"; the code
extends it on either: `create` alone makes `setattr` a reasonable extension. -/
theorem C24_special_rule_is_or :
    ∃ m ps, ¬Granted m ps cs!"write" ∧ Reasonable m ps cs!"setattr" ∧
      (extendSpecial (Pm.create ||| Pm.getattr ||| Pm.link)).getLsbD 6 = true := by
  refine ⟨{}, [cs!"create"], ?_, ?_, by decide +kernel⟩
  · rintro ⟨p, hp, hg⟩
    simp at hp; subst hp
    rw [grants_unknown (by rfl)] at hg
    simp at hg
  · refine Or.inr (Or.inl ⟨by simp, cs!"create", by simp, cs!"create", by simp, .self (Or.inr rfl)⟩)

end Selint
