import Verif.Model.Maps
/-! # Lemmas about the symbol tables -/

namespace Selint

namespace Assoc

variable {β : Type}

@[simp] theorem find_nil (k : Str) : find ([] : Assoc β) k = none := rfl

theorem find_append (a b : Assoc β) (k : Str) :
    find (a ++ b) k = (find a k).or (find b k) := by
  induction a with
  | nil => simp
  | cons x a ih =>
    obtain ⟨k', v⟩ := x
    simp only [List.cons_append, find]
    split <;> simp [ih]

theorem find_insertNew (m : Assoc β) (k k' : Str) (v : β) :
    find (insertNew m k v) k' = (find m k').or (if k = k' then some v else none) := by
  unfold insertNew
  cases h : find m k with
  | some w =>
    by_cases hk : k = k'
    · subst hk; simp [h]
    · simp [hk]
  | none => rw [find_append]; simp [find]

theorem find_modify (m : Assoc β) (k k' : Str) (f : β → β) :
    find (modify m k f) k' = if k = k' then (find m k').map f else find m k' := by
  induction m with
  | nil => simp [modify]
  | cons x m ih =>
    obtain ⟨k0, v⟩ := x
    simp only [modify]
    by_cases h0 : k0 = k
    · subst h0
      simp only [if_true, find]
      by_cases h1 : k0 = k' <;> simp [h1]
    · simp only [h0, if_false, find, ih]
      by_cases h1 : k0 = k'
      · subst h1; simp [Ne.symm h0]
      · simp [h1]

theorem find_isSome_iff (m : Assoc β) (k : Str) : (find m k).isSome = true ↔ k ∈ m.map (·.1) := by
  induction m with
  | nil => simp
  | cons x m ih =>
    obtain ⟨k', v⟩ := x
    simp only [find, List.map_cons, List.mem_cons]
    by_cases h : k' = k
    · simp [h]
    · simp only [h, if_false, ih]
      constructor
      · exact Or.inr
      · rintro (h' | h')
        · exact absurd h'.symm h
        · exact h'

theorem find_eq_none_iff (m : Assoc β) (k : Str) : find m k = none ↔ k ∉ m.map (·.1) := by
  rw [← find_isSome_iff]; cases find m k <;> simp

theorem find_some_mem {m : Assoc β} {k : Str} {v : β} (h : find m k = some v) : (k, v) ∈ m := by
  induction m with
  | nil => simp at h
  | cons x m ih =>
    obtain ⟨k', w⟩ := x
    simp only [find] at h
    split at h
    · rename_i hk; simp at h; subst hk h; simp
    · simp [ih h]

end Assoc

namespace Maps

/-- `insertDecl` changes only the table of its flavor. -/
theorem insertDecl_table (m : Maps) (n md : Str) (fl g : DeclFlavor) :
    (m.insertDecl n md fl).declTable g =
      if g = fl then Assoc.insertNew (m.declTable fl) n md else m.declTable g := by
  unfold insertDecl Assoc.insertNew
  cases h : (m.declTable fl).find n with
  | some w =>
    by_cases hg : g = fl
    · subst hg; simp
    · simp [hg]
  | none => cases fl <;> cases g <;> simp [declTable]

theorem lookUpDecl_insertDecl (m : Maps) (n md : Str) (fl g : DeclFlavor) (k : Str) :
    (m.insertDecl n md fl).lookUpDecl k g =
      (m.lookUpDecl k g).or (if n = k ∧ fl = g then some md else none) := by
  unfold lookUpDecl
  rw [insertDecl_table]
  by_cases hg : g = fl
  · subst hg; simp [Assoc.find_insertNew]
  · simp [hg, Ne.symm hg]

/-- The fields other than the declaration tables are untouched by `insertDecl`. -/
theorem insertDecl_other (m : Maps) (n md : Str) (fl : DeclFlavor) :
    (m.insertDecl n md fl).mods = m.mods ∧ (m.insertDecl n md fl).modLayers = m.modLayers ∧
    (m.insertDecl n md fl).ifs = m.ifs ∧ (m.insertDecl n md fl).transform = m.transform ∧
    (m.insertDecl n md fl).filetrans = m.filetrans ∧ (m.insertDecl n md fl).roleIf = m.roleIf ∧
    (m.insertDecl n md fl).permmacros = m.permmacros ∧
    (m.insertDecl n md fl).template = m.template := by
  unfold insertDecl
  split
  · simp
  · cases fl <;> simp

end Maps

end Selint
