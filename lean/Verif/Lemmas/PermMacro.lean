import Verif.Model.PermMacro
import Verif.Spec.PermMacro
import Verif.Lemmas.Basic
/-! # Lemmas about permission masks -/

namespace Selint
open Spec

/-! ## popcount -/

theorem nat_clear_lowest (n x : Nat) (hx : 0 < x) (hn : x ≤ n) :
    ∃ k, x.testBit k = true ∧ ∀ i, (x &&& (x - 1)).testBit i = (x.testBit i && decide (i ≠ k)) := by
  induction n generalizing x with
  | zero => omega
  | succ n ih =>
    by_cases hodd : x % 2 = 1
    · refine ⟨0, by simp [Nat.testBit_zero, hodd], ?_⟩
      intro i
      rw [Nat.testBit_and]
      cases i with
      | zero => simp [Nat.testBit_zero]; omega
      | succ i =>
        have : (x - 1) / 2 = x / 2 := by omega
        simp [Nat.testBit_succ, this]
    · obtain ⟨k, h1, h2⟩ := ih (x / 2) (by omega) (by omega)
      refine ⟨k + 1, by simpa [Nat.testBit_succ] using h1, ?_⟩
      intro i
      rw [Nat.testBit_and]
      cases i with
      | zero => simp [Nat.testBit_zero]; omega
      | succ i =>
        have h3 : (x - 1) / 2 = x / 2 - 1 := by omega
        have := h2 i
        rw [Nat.testBit_and] at this
        simp only [Nat.testBit_succ, h3, this]
        simp

theorem clear_lowest (mask : Mask) (h : mask ≠ 0) :
    ∃ k, mask.getLsbD k = true ∧
      ∀ i, (mask &&& (mask - 1)).getLsbD i = (mask.getLsbD i && decide (i ≠ k)) := by
  have hpos : 0 < mask.toNat := by
    rcases Nat.eq_zero_or_pos mask.toNat with h0 | h0
    · exact absurd (BitVec.eq_of_toNat_eq (by simpa using h0)) h
    · exact h0
  have hsub : (mask - 1).toNat = mask.toNat - 1 := by
    have := mask.isLt
    simp only [BitVec.toNat_sub]
    simp
    omega
  obtain ⟨k, h1, h2⟩ := nat_clear_lowest _ mask.toNat hpos (Nat.le_refl _)
  refine ⟨k, h1, ?_⟩
  intro i
  have := h2 i
  simp only [BitVec.getLsbD, BitVec.toNat_and, hsub]
  exact this

theorem filter_remove (p : Nat → Bool) (k : Nat) (l : List Nat) (hn : l.Nodup) (hk : k ∈ l)
    (hp : p k = true) :
    (l.filter fun i => p i && decide (i ≠ k)).length + 1 = (l.filter p).length := by
  induction l with
  | nil => simp at hk
  | cons a l ih =>
    rw [List.nodup_cons] at hn
    rcases List.mem_cons.mp hk with rfl | hk
    · have : (l.filter fun i => p i && decide (i ≠ k)) = l.filter p := by
        apply List.filter_congr
        intro x hx
        have : x ≠ k := fun e => hn.1 (e ▸ hx)
        simp [this]
      rw [List.filter_cons_of_neg (by simp), this, List.filter_cons_of_pos hp]
      rfl
    · have hne : a ≠ k := fun e => hn.1 (e ▸ hk)
      have := ih hn.2 hk
      by_cases ha : p a = true
      · rw [List.filter_cons_of_pos (by simp [ha, hne]), List.filter_cons_of_pos ha]
        simp only [List.length_cons, this]
      · rw [List.filter_cons_of_neg (by simp [ha]), List.filter_cons_of_neg ha]
        exact this

theorem bitCount_clear (mask : Mask) (h : mask ≠ 0) :
    bitCount (mask &&& (mask - 1)) + 1 = bitCount mask := by
  obtain ⟨k, h1, h2⟩ := clear_lowest mask h
  unfold bitCount
  simp only [h2]
  refine filter_remove (mask.getLsbD ·) k _ List.nodup_range ?_ h1
  rw [List.mem_range]
  exact BitVec.lt_of_getLsbD h1

theorem popcountLoop_eq (fuel : Nat) (mask : Mask) (c : Nat) (h : bitCount mask ≤ fuel) :
    popcountLoop fuel mask c = some (c + bitCount mask) := by
  induction fuel generalizing mask c with
  | zero =>
    unfold popcountLoop
    by_cases h0 : mask = 0
    · subst h0; simp [bitCount]
    · have := bitCount_clear mask h0; omega
  | succ fuel ih =>
    unfold popcountLoop
    by_cases h0 : mask = 0
    · subst h0; simp [bitCount]
    · have := bitCount_clear mask h0
      simp only [h0, if_false]
      rw [ih _ _ (by omega)]
      congr 1; omega

theorem bitCount_le (mask : Mask) : bitCount mask ≤ 32 := by
  unfold bitCount
  have := List.length_filter_le (mask.getLsbD ·) (List.range 32)
  simpa using this

theorem popcount_eq (mask : Mask) : popcount mask = bitCount mask := by
  unfold popcount
  rw [popcountLoop_eq 32 mask 0 (bitCount_le mask)]
  simp

/-! ## The table -/

theorem table_raw : ∀ e ∈ pmTable, ∀ i < 32, e.raw.getLsbD i = decide (permBit e.name = i) := by
  decide +kernel

theorem table_ext : ∀ e ∈ pmTable, ∀ i < 32,
    e.ext.getLsbD i = decide (∃ x ∈ extensions e.name, permBit x = i) := by
  decide +kernel

theorem pmFind_some {p : Str} {l : List PmEntry} {e : PmEntry} (h : pmFind p l = some e) :
    e ∈ l ∧ e.name = p := by
  induction l with
  | nil => simp [pmFind] at h
  | cons a l ih =>
    unfold pmFind at h
    split at h
    · rename_i hc
      simp at h; subst h
      exact ⟨by simp, (strcmp_eq_zero.mp hc).symm⟩
    · exact ⟨List.mem_cons_of_mem _ (ih h).1, (ih h).2⟩

theorem pmFind_none {p : Str} {l : List PmEntry} (h : pmFind p l = none) :
    ∀ e ∈ l, e.name ≠ p := by
  induction l with
  | nil => simp
  | cons a l ih =>
    unfold pmFind at h
    split at h
    · simp at h
    · rename_i hc
      intro e he
      rcases List.mem_cons.mp he with rfl | he
      · intro h2; exact hc (by rw [h2]; simp)
      · exact ih h e he

theorem table_names : pmTable.map (·.name) = coveredNames ++ uncoveredNames := by decide +kernel

theorem pmFind_none_iff {p : Str} : pmFind p pmTable = none ↔ ¬IsPermName p := by
  have h1 : IsPermName p ↔ p ∈ pmTable.map (·.name) := by
    rw [table_names, List.mem_append]; rfl
  rw [h1, List.mem_map]
  constructor
  · rintro h ⟨e, he, hn⟩
    exact pmFind_none h e he hn
  · intro h
    cases hf : pmFind p pmTable with
    | none => rfl
    | some e => exact absurd ⟨e, (pmFind_some hf).1, (pmFind_some hf).2⟩ h

theorem permBit_not_covered {p : Str} (h : p ∉ coveredNames) : permBit p = 31 ∧ extensions p = [p] := by
  unfold permBit extensions
  have : coveredPerms.find? (·.1 == p) = none := by
    rw [List.find?_eq_none]
    intro e he
    simp only [beq_iff_eq]
    rintro rfl
    exact h (List.mem_map.mpr ⟨e, he, rfl⟩)
  simp [this]

theorem uncovered_bit (i : Nat) : Pm.uncovered.getLsbD i = decide (31 = i) := by
  unfold Pm.uncovered Pm.bit
  by_cases h : i < 32
  · have : ∀ i < 32, (1#32 <<< 31).getLsbD i = decide (31 = i) := by decide
    exact this i h
  · rw [BitVec.getLsbD_of_ge _ _ (by omega)]
    have : ¬31 = i := by omega
    simp [this]

theorem permBit_lt (p : Str) : permBit p < 32 := by
  by_cases h : p ∈ coveredNames
  · have : ∀ p ∈ coveredNames, permBit p < 32 := by decide +kernel
    exact this p h
  · rw [(permBit_not_covered h).1]; omega

theorem permBit_ne_31 : ∀ p ∈ coveredNames, permBit p ≠ 31 := by decide +kernel

theorem permBit_inj : ∀ p ∈ coveredNames, ∀ q ∈ coveredNames, permBit p = permBit q → p = q := by
  decide +kernel

/-! ## Termination -/

theorem maskLoop_ub {f : Str → Masks → Res Masks} {ps : List Str} {acc : Masks}
    (h : maskLoop f ps acc = .ub) : ∃ p ∈ ps, ∃ a, f p a = .ub := by
  induction ps generalizing acc with
  | nil => simp [maskLoop] at h
  | cons p ps ih =>
    unfold maskLoop at h
    split at h
    · obtain ⟨q, hq, a, ha⟩ := ih h
      exact ⟨q, by simp [hq], a, ha⟩
    · rename_i hf
      exact ⟨p, by simp, acc, hf⟩

theorem maskLoop_ub_of {f : Str → Masks → Res Masks} {ps : List Str} {p : Str} (hp : p ∈ ps)
    (hf : ∀ a, f p a = .ub) (acc : Masks) : maskLoop f ps acc = .ub := by
  induction ps generalizing acc with
  | nil => simp at hp
  | cons q ps ih =>
    unfold maskLoop
    split
    · rename_i acc' h
      rcases List.mem_cons.mp hp with rfl | hp
      · rw [hf] at h; simp at h
      · exact ih hp _
    · rfl

/-- A sequence of macro names, each an entry of the one before. -/
def MacroPath (m : Maps) : List Str → Prop
  | [] => True
  | [p] => ∃ q, MacroStep m p q
  | p :: q :: l => MacroStep m p q ∧ MacroPath m (q :: l)

theorem strToMask_ub {m : Maps} {rec : List Str → Masks → Res Masks} {p : Str} {acc : Masks}
    (h : strToMask m rec p acc = .ub) :
    ¬IsPermName p ∧ ∃ ps, m.lookUpPermmacro p = some ps ∧ ps ≠ [] ∧ rec ps acc = .ub := by
  unfold strToMask at h
  split at h
  · simp at h
  · rename_i hf
    split at h
    · rename_i ps hl
      refine ⟨pmFind_none_iff.mp hf, ps, hl, ?_, h⟩
      rintro rfl
      unfold Maps.lookUpPermmacro at hl
      split at hl <;> simp at hl
    · simp at h

theorem compute_ub_path {m : Maps} (n : Nat) (ps : List Str) (acc : Masks)
    (h : computePermMaskF m n ps acc = .ub) (hne : ps ≠ []) :
    ∃ l : List Str, l.length = n ∧ MacroPath m l ∧ ∀ p, l.head? = some p → p ∈ ps := by
  induction n generalizing ps acc with
  | zero => exact ⟨[], rfl, trivial, by simp⟩
  | succ n ih =>
    obtain ⟨p, hp, a, ha⟩ := maskLoop_ub (show maskLoop _ ps acc = .ub from h)
    obtain ⟨h1, ds, h2, h4, h3⟩ := strToMask_ub ha
    obtain ⟨l, hl, hpath, hhead⟩ := ih ds a h3 h4
    refine ⟨p :: l, by simp [hl], ?_, by simp [hp]⟩
    cases l with
    | nil =>
      cases ds with
      | nil => exact absurd rfl h4
      | cons d ds => exact ⟨d, h1, _, h2, by simp⟩
    | cons q l => exact ⟨⟨h1, ds, h2, hhead q rfl⟩, hpath⟩

theorem reaches_trans {m : Maps} {a b c : Str} (h1 : Reaches m a b) (h2 : Reaches m b c) :
    Reaches m a c := by
  induction h1 with
  | refl => exact h2
  | step hs _ ih => exact .step hs (ih h2)

/-- Everything on a macro path is reached from its first element. -/
theorem path_reaches {m : Maps} (p : Str) (l : List Str) (h : MacroPath m (p :: l)) :
    ∀ q ∈ p :: l, Reaches m p q := by
  induction l generalizing p with
  | nil => intro q hq; simp at hq; subst hq; exact .refl _
  | cons r l ih =>
    intro q hq
    rcases List.mem_cons.mp hq with rfl | hq
    · exact .refl _
    · exact .step h.1 (ih r h.2 q hq)

theorem path_tail {m : Maps} {p : Str} {l : List Str} (h : MacroPath m (p :: l)) : MacroPath m l := by
  cases l with
  | nil => trivial
  | cons q l => exact h.2

theorem path_dup_cycle {m : Maps} (l : List Str) (h : MacroPath m l) (hd : ¬l.Nodup) :
    ∃ c ∈ l, OnCycle m c := by
  induction l with
  | nil => simp at hd
  | cons p l ih =>
    by_cases hp : p ∈ l
    · cases l with
      | nil => simp at hp
      | cons q l => exact ⟨p, by simp, q, h.1, path_reaches q l h.2 p hp⟩
    · obtain ⟨c, hc, hcy⟩ := ih (path_tail h) (by
        intro hn; exact hd (List.nodup_cons.mpr ⟨hp, hn⟩))
      exact ⟨c, by simp [hc], hcy⟩

theorem nodup_le_of_subset {α : Type} [DecidableEq α] (l k : List α) (hn : l.Nodup)
    (h : ∀ a ∈ l, a ∈ k) : l.length ≤ k.length := by
  induction l generalizing k with
  | nil => simp
  | cons a l ih =>
    rw [List.nodup_cons] at hn
    have ha := h a (by simp)
    have := ih (k.erase a) hn.2 (by
      intro b hb
      have : b ≠ a := by rintro rfl; exact hn.1 hb
      exact (List.mem_erase_of_ne this).mpr (h b (by simp [hb])))
    rw [List.length_erase_of_mem ha] at this
    have := List.length_pos_of_mem ha
    simp only [List.length_cons]; omega

theorem find_mem {β : Type} {m : Assoc β} {k : Str} {v : β} (h : m.find k = some v) :
    (k, v) ∈ m := by
  induction m with
  | nil => simp [Assoc.find] at h
  | cons a m ih =>
    obtain ⟨k', v'⟩ := a
    unfold Assoc.find at h
    split at h
    · rename_i e; simp at h; subst e; subst h; simp
    · exact List.mem_cons_of_mem _ (ih h)

theorem lookUpPermmacro_mem {m : Maps} {p : Str} {ps : List Str}
    (h : m.lookUpPermmacro p = some ps) : (p, ps) ∈ m.permmacros := by
  unfold Maps.lookUpPermmacro at h
  split at h
  · rename_i hf; simp at h; subst h; exact find_mem hf
  · simp at h

theorem path_keys {m : Maps} (l : List Str) (h : MacroPath m l) :
    ∀ p ∈ l, p ∈ m.permmacros.map (·.1) := by
  induction l with
  | nil => simp
  | cons p l ih =>
    intro q hq
    rcases List.mem_cons.mp hq with rfl | hq
    · have : ∃ r, MacroStep m q r := by
        cases l with
        | nil => exact h
        | cons r l => exact ⟨r, h.1⟩
      obtain ⟨r, _, ps, h1, _⟩ := this
      exact List.mem_map.mpr ⟨_, lookUpPermmacro_mem h1, rfl⟩
    · exact ih (path_tail h) q hq

/-- An entry whose expansion runs into a circular definition. -/
def Circular (m : Maps) (p : Str) : Prop := ∃ c, Reaches m p c ∧ OnCycle m c

theorem circular_of_ub {m : Maps} {n : Nat} {ps : List Str} {acc : Masks}
    (hn : m.permmacros.length < n) (h : computePermMaskF m n ps acc = .ub) :
    ∃ p ∈ ps, Circular m p := by
  have hne : ps ≠ [] := by
    rintro rfl
    cases n with
    | zero => omega
    | succ n => simp [computePermMaskF, maskLoop] at h
  obtain ⟨l, hl, hpath, hhead⟩ := compute_ub_path n ps acc h hne
  have hdup : ¬l.Nodup := by
    intro hnd
    have := nodup_le_of_subset l (m.permmacros.map (·.1)) hnd (path_keys l hpath)
    simp at this; omega
  obtain ⟨c, hc, hcy⟩ := path_dup_cycle l hpath hdup
  cases l with
  | nil => simp at hc
  | cons p l => exact ⟨p, hhead p rfl, c, path_reaches p l hpath c hc, hcy⟩

theorem circular_step {m : Maps} {p : Str} (h : Circular m p) :
    ∃ q, MacroStep m p q ∧ Circular m q := by
  obtain ⟨c, hr, d, hs, hd⟩ := h
  cases hr with
  | refl => exact ⟨d, hs, p, hd, d, hs, hd⟩
  | step h1 h2 => exact ⟨_, h1, c, h2, d, hs, hd⟩

theorem ub_of_circular {m : Maps} {p : Str} (h : Circular m p) (n : Nat) (ps : List Str)
    (acc : Masks) (hp : p ∈ ps) : computePermMaskF m n ps acc = .ub := by
  induction n generalizing p ps acc with
  | zero => rfl
  | succ n ih =>
    refine maskLoop_ub_of hp (fun a => ?_) acc
    obtain ⟨q, ⟨h1, ds, h2, h3⟩, h4⟩ := circular_step h
    unfold strToMask
    rw [pmFind_none_iff.mpr h1, h2]
    exact ih h4 ds a h3

/-! ## The masks -/

theorem grants_permName {m : Maps} {p q : Str} (h : IsPermName p) : Grants m p q ↔ q = p := by
  constructor
  · intro hg
    cases hg with
    | self => rfl
    | expand hs _ => exact absurd h hs.1
  · rintro rfl; exact .self (Or.inl h)

theorem grants_unknown {m : Maps} {p q : Str} (h : m.lookUpPermmacro p = none) :
    Grants m p q ↔ q = p := by
  constructor
  · intro hg
    cases hg with
    | self => rfl
    | expand hs _ =>
      obtain ⟨_, ps, h1, _⟩ := hs
      rw [h] at h1; simp at h1
  · rintro rfl; exact .self (Or.inr h)

theorem grants_macro {m : Maps} {p q : Str} {ps : List Str} (hp : ¬IsPermName p)
    (h : m.lookUpPermmacro p = some ps) : Grants m p q ↔ Granted m ps q := by
  constructor
  · intro hg
    cases hg with
    | self h2 =>
      rcases h2 with h2 | h2
      · exact absurd h2 hp
      · rw [h] at h2; simp at h2
    | expand hs hg =>
      obtain ⟨_, ps', h1, h2⟩ := hs
      rw [h] at h1; simp at h1; subst h1
      exact ⟨_, h2, hg⟩
  · rintro ⟨p', h1, h2⟩
    exact .expand ⟨hp, ps, h, h1⟩ h2

/-- What two masks hold after adding the permissions in `S`. -/
def Adds (acc r : Masks) (S : Str → Prop) : Prop :=
  (∀ i, r.raw.getLsbD i = true ↔ acc.raw.getLsbD i = true ∨ ∃ q, S q ∧ permBit q = i) ∧
  (∀ i, r.ext.getLsbD i = true ↔
    acc.ext.getLsbD i = true ∨ ∃ q, S q ∧ ∃ x ∈ extensions q, permBit x = i)

theorem Adds.congr {acc r : Masks} {S T : Str → Prop} (h : Adds acc r S) (hst : ∀ q, S q ↔ T q) :
    Adds acc r T := by
  have : S = T := funext fun q => propext (hst q)
  exact this ▸ h

theorem bit_lt {e : Mask} {i : Nat} (h : e.getLsbD i = true) : i < 32 := BitVec.lt_of_getLsbD h

theorem adds_or (acc : Masks) (q : Str) (raw ext : Mask)
    (hr : ∀ i, i < 32 → raw.getLsbD i = decide (permBit q = i))
    (he : ∀ i, i < 32 → ext.getLsbD i = decide (∃ x ∈ extensions q, permBit x = i)) :
    Adds acc ⟨acc.raw ||| raw, acc.ext ||| ext⟩ (fun x => x = q) := by
  constructor
  · intro i
    simp only [BitVec.getLsbD_or, Bool.or_eq_true, exists_eq_left]
    refine or_congr Iff.rfl ?_
    constructor
    · intro h; rw [hr i (bit_lt h)] at h; exact of_decide_eq_true h
    · intro h; rw [hr i (h ▸ permBit_lt q)]; exact decide_eq_true h
  · intro i
    simp only [BitVec.getLsbD_or, Bool.or_eq_true, exists_eq_left]
    refine or_congr Iff.rfl ?_
    constructor
    · intro h; rw [he i (bit_lt h)] at h; exact of_decide_eq_true h
    · intro h
      obtain ⟨x, h1, h2⟩ := h
      rw [he i (h2 ▸ permBit_lt x)]; exact decide_eq_true ⟨x, h1, h2⟩

theorem maskLoop_adds {m : Maps} {f : Str → Masks → Res Masks}
    (hf : ∀ p acc r, f p acc = .ok r → Adds acc r (Grants m p)) (ps : List Str) (acc r : Masks)
    (h : maskLoop f ps acc = .ok r) : Adds acc r (Granted m ps) := by
  induction ps generalizing acc with
  | nil =>
    simp [maskLoop] at h; subst h
    constructor <;> intro i <;> simp [Granted]
  | cons p ps ih =>
    unfold maskLoop at h
    split at h
    · rename_i acc' h1
      obtain ⟨a1, a2⟩ := hf _ _ _ h1
      obtain ⟨b1, b2⟩ := ih _ h
      constructor
      · intro i
        rw [b1, a1, or_assoc]
        refine or_congr Iff.rfl ?_
        constructor
        · rintro (⟨q, h3, h4⟩ | ⟨q, ⟨p', h5, h6⟩, h4⟩)
          · exact ⟨q, ⟨p, by simp, h3⟩, h4⟩
          · exact ⟨q, ⟨p', by simp [h5], h6⟩, h4⟩
        · rintro ⟨q, ⟨p', h5, h6⟩, h4⟩
          rcases List.mem_cons.mp h5 with rfl | h5
          · exact Or.inl ⟨q, h6, h4⟩
          · exact Or.inr ⟨q, ⟨p', h5, h6⟩, h4⟩
      · intro i
        rw [b2, a2, or_assoc]
        refine or_congr Iff.rfl ?_
        constructor
        · rintro (⟨q, h3, h4⟩ | ⟨q, ⟨p', h5, h6⟩, h4⟩)
          · exact ⟨q, ⟨p, by simp, h3⟩, h4⟩
          · exact ⟨q, ⟨p', by simp [h5], h6⟩, h4⟩
        · rintro ⟨q, ⟨p', h5, h6⟩, h4⟩
          rcases List.mem_cons.mp h5 with rfl | h5
          · exact Or.inl ⟨q, h6, h4⟩
          · exact Or.inr ⟨q, ⟨p', h5, h6⟩, h4⟩
    · simp at h

theorem strToMask_adds {m : Maps} {rec : List Str → Masks → Res Masks}
    (hrec : ∀ ps acc r, rec ps acc = .ok r → Adds acc r (Granted m ps)) (p : Str) (acc r : Masks)
    (h : strToMask m rec p acc = .ok r) : Adds acc r (Grants m p) := by
  unfold strToMask at h
  split at h
  · rename_i e he
    simp at h; subst h
    obtain ⟨h1, h2⟩ := pmFind_some he
    subst h2
    refine (adds_or acc e.name e.raw e.ext (table_raw e h1) (table_ext e h1)).congr ?_
    intro q
    refine (grants_permName ?_).symm
    have := List.mem_map_of_mem (f := (·.name)) h1
    rw [table_names, List.mem_append] at this
    exact this
  · rename_i hf
    split at h
    · rename_i ps hl
      exact (hrec ps acc r h).congr fun q => (grants_macro (pmFind_none_iff.mp hf) hl).symm
    · rename_i hl
      simp at h; subst h
      have hnc : p ∉ coveredNames := fun hc => (pmFind_none_iff.mp hf) (Or.inl hc)
      obtain ⟨h1, h2⟩ := permBit_not_covered hnc
      refine (adds_or acc p Pm.uncovered Pm.uncovered ?_ ?_).congr fun q => (grants_unknown hl).symm
      · intro i _; rw [uncovered_bit, h1]
      · intro i _; rw [uncovered_bit, h2]; simp [h1]

theorem compute_adds {m : Maps} (n : Nat) (ps : List Str) (acc r : Masks)
    (h : computePermMaskF m n ps acc = .ok r) : Adds acc r (Granted m ps) := by
  induction n generalizing ps acc r with
  | zero => simp [computePermMaskF] at h
  | succ n ih => exact maskLoop_adds (strToMask_adds ih) ps acc r h

theorem Adds.unique {acc r r' : Masks} {S : Str → Prop} (h : Adds acc r S) (h' : Adds acc r' S) :
    r = r' := by
  have h1 : r.raw = r'.raw := by
    apply BitVec.eq_of_getLsbD_eq
    intro i _
    rw [Bool.eq_iff_iff, h.1, h'.1]
  have h2 : r.ext = r'.ext := by
    apply BitVec.eq_of_getLsbD_eq
    intro i _
    rw [Bool.eq_iff_iff, h.2, h'.2]
  cases r; cases r'; simp_all

end Selint
