import Verif.Lemmas.PermMacro
/-! # C23, C27, C28: permission masks, bit counting, string builder -/

namespace Selint
open Spec

/-! ## C27 -/

/-- C27. For every mask the loop ends within 32 iterations and counts the set bits. -/
theorem C27_popcount (mask : Mask) :
    popcountLoop 32 mask 0 = some (bitCount mask) ∧ popcount mask = bitCount mask := by
  refine ⟨?_, popcount_eq mask⟩
  rw [popcountLoop_eq 32 mask 0 (bitCount_le mask)]
  simp

example : popcount 0xffffffff#32 = 32 ∧ popcount 0x80000001#32 = 2 ∧ popcount 0#32 = 0 := by
  decide +kernel

/-! ## C23 -/

/-- C23. The mask of a permission list has exactly the bits of the permissions its entries
expand to, and the extended mask those of their extensions; unknown names have bit 31. -/
theorem C23_union (m : Maps) (ps : List Str) (r : Masks)
    (h : computePermMask m ps ⟨0, 0⟩ = .ok r) :
    (∀ i, r.raw.getLsbD i = true ↔ ∃ q, Granted m ps q ∧ permBit q = i) ∧
    (∀ i, r.ext.getLsbD i = true ↔ ∃ q, Granted m ps q ∧ ∃ x ∈ extensions q, permBit x = i) := by
  obtain ⟨h1, h2⟩ := compute_adds _ _ _ _ h
  constructor
  · intro i; rw [h1]; simp
  · intro i; rw [h2]; simp

/-- C23. A name that is neither a known permission nor a macro adds the bit 31 and nothing
else, whatever has been collected before. -/
theorem C23_unknown_only_uncovered (m : Maps) (p : Str) (h1 : ¬IsPermName p)
    (h2 : m.lookUpPermmacro p = none) (acc : Masks) :
    computePermMask m [p] acc = .ok ⟨acc.raw ||| Pm.uncovered, acc.ext ||| Pm.uncovered⟩ ∧
    ∀ i, Pm.uncovered.getLsbD i = decide (31 = i) := by
  refine ⟨?_, uncovered_bit⟩
  simp [computePermMask, pmFuel, computePermMaskF, maskLoop, strToMask, pmFind_none_iff.mpr h1, h2]

/-- C23. The computation ends exactly if no entry leads to a circular macro definition. -/
theorem C23_terminates_iff (m : Maps) (ps : List Str) (acc : Masks) :
    computePermMask m ps acc ≠ .ub ↔ ¬∃ p ∈ ps, ∃ c, Reaches m p c ∧ OnCycle m c := by
  constructor
  · rintro h ⟨p, hp, hc⟩
    exact h (ub_of_circular hc _ _ _ hp)
  · intro h hub
    exact h (circular_of_ub (by unfold pmFuel; omega) hub)

/-- C23. The nesting bound of the model is not a limit: a computation that ends with some
bound ends with the model's bound and has the same result; so `.ub` stands for a recursion
without end. -/
theorem C23_fuel_irrelevant (m : Maps) (n : Nat) (ps : List Str) (acc r : Masks)
    (h : computePermMaskF m n ps acc = .ok r) : computePermMask m ps acc = .ok r := by
  cases h2 : computePermMask m ps acc with
  | ub =>
    obtain ⟨p, hp, hc⟩ := circular_of_ub (by unfold pmFuel; omega) h2
    rw [ub_of_circular hc _ _ _ hp] at h; simp at h
  | ok r' => rw [(compute_adds _ _ _ _ h2).unique (compute_adds _ _ _ _ h)]

/-- C23. Order and repetition of the entries do not matter. -/
theorem C23_order_irrelevant (m : Maps) (ps ps' : List Str) (acc : Masks)
    (h : ∀ p, p ∈ ps ↔ p ∈ ps') : computePermMask m ps acc = computePermMask m ps' acc := by
  have key : ∀ qs qs' : List Str, (∀ p, p ∈ qs ↔ p ∈ qs') → computePermMask m qs' acc = .ub →
      computePermMask m qs acc = .ub := by
    intro qs qs' hq hub
    obtain ⟨p, hp, hc⟩ := circular_of_ub (by unfold pmFuel; omega) hub
    exact ub_of_circular hc _ _ _ ((hq p).mpr hp)
  cases h1 : computePermMask m ps acc with
  | ub => exact (key ps' ps (fun p => (h p).symm) h1).symm
  | ok r =>
    cases h2 : computePermMask m ps' acc with
    | ub => rw [key ps ps' h h2] at h1; simp at h1
    | ok r' =>
      congr 1
      refine (compute_adds _ _ _ _ h1).unique ((compute_adds _ _ _ _ h2).congr ?_)
      intro q
      simp only [Granted, h]

/-- Two nested macros and an unknown permission. -/
def pmExample : Maps :=
  { permmacros :=
      [(cs!"getattr_file_perms", [cs!"getattr"]),
       (cs!"read_file_perms", [cs!"getattr_file_perms", cs!"open", cs!"read", cs!"lock", cs!"ioctl"]),
       (cs!"rw_file_perms", [cs!"read_file_perms", cs!"write", cs!"append"]),
       (cs!"a_file_perms", [cs!"b_file_perms"]), (cs!"b_file_perms", [cs!"a_file_perms"])] }

example : computePermMask pmExample [cs!"read_file_perms", cs!"foo"] ⟨0, 0⟩ =
    .ok ⟨Pm.getattr ||| Pm.open_ ||| Pm.read ||| Pm.lock ||| Pm.ioctl ||| Pm.uncovered,
      Pm.getattr ||| Pm.open_ ||| Pm.read ||| Pm.lock ||| Pm.ioctl ||| Pm.search ||| Pm.uncovered⟩ := by
  decide +kernel

/-- C23, the finding: circular macro definitions make the C program recurse without end. -/
theorem C23_circular_never_ends :
    ∃ (m : Maps) (p : Str), ∀ n acc, computePermMaskF m n [p] acc = .ub := by
  refine ⟨pmExample, cs!"a_file_perms", fun n acc => ub_of_circular ?_ n _ acc (List.mem_singleton.mpr rfl)⟩
  have ha : ¬IsPermName cs!"a_file_perms" := by unfold IsPermName; decide +kernel
  have hb : ¬IsPermName cs!"b_file_perms" := by unfold IsPermName; decide +kernel
  refine ⟨cs!"a_file_perms", .refl _, cs!"b_file_perms", ⟨ha, [cs!"b_file_perms"], by decide +kernel, by simp⟩, ?_⟩
  exact .step ⟨hb, [cs!"a_file_perms"], by decide +kernel, by simp⟩ (.refl _)

/-! ## C28 -/

/-- A builder that holds the text `s`. -/
structure SbHolds (sb : StringBuilder) (s : Str) : Prop where
  size : sb.mem.length = sb.cap
  len : sb.len = s.length
  fits : sb.len + 1 ≤ sb.cap
  text : ∃ rest, sb.mem = s.map .ch ++ .nul :: rest

theorem sbCreate_holds (n : Nat) : SbHolds (sbCreate n) [] := by
  unfold sbCreate
  constructor
  · simp; split <;> omega
  · rfl
  · simp; split <;> omega
  · exact ⟨_, rfl⟩

theorem sbGrow_ok (fuel : Nat) (sb : StringBuilder) (len : Nat) (s : Str) (h : SbHolds sb s)
    (h0 : 0 < fuel) (hf : sb.len + len + 1 < fuel + sb.cap) :
    ∃ sb', sbGrow fuel sb len = some sb' ∧ SbHolds sb' s ∧ sb'.len + len + 1 ≤ sb'.cap := by
  induction fuel generalizing sb with
  | zero => omega
  | succ fuel ih =>
    unfold sbGrow
    split
    · refine ih _ ⟨?_, h.len, ?_, ?_⟩ (by omega) ?_
      · simp [h.size]; omega
      · have := h.fits; simp; omega
      · obtain ⟨rest, hr⟩ := h.text
        exact ⟨rest ++ List.replicate sb.cap .junk, by simp [hr]⟩
      · have := h.fits
        simp; omega
    · exact ⟨sb, rfl, h, by omega⟩

theorem sbAppend_ok (sb : StringBuilder) (s t : Str) (h : SbHolds sb s) :
    ∃ sb', sbAppend sb t = .ok sb' ∧ SbHolds sb' (s ++ t) := by
  obtain ⟨sb1, h1, h2, h3⟩ := sbGrow_ok (sb.len + t.length + 2) sb t.length s h
    (by omega) (by have := h.fits; omega)
  obtain ⟨rest, hr⟩ := h2.text
  have hlen := h2.len
  have hsize := h2.size
  have hbound : sb1.len + t.length + 1 ≤ sb1.mem.length := by omega
  unfold sbAppend
  rw [h1]
  simp only
  have hw1 : bufStrncpy sb1.mem sb1.len t =
      .ok (s.map .ch ++ t.map Cell.ch ++ sb1.mem.drop (sb1.len + t.length)) := by
    unfold bufStrncpy bufWrite
    rw [if_pos (by simp; omega)]
    congr 1
    have : sb1.mem.take sb1.len = s.map .ch := by
      rw [hr, hlen]
      rw [List.take_append_of_le_length (by simp)]
      exact List.take_of_length_le (by simp)
    rw [this, List.length_map]
  rw [hw1]
  simp only
  have hd : (sb1.mem.drop (sb1.len + t.length)).length = sb1.mem.length - (sb1.len + t.length) := by simp
  have hw2 : bufWrite (s.map Cell.ch ++ t.map Cell.ch ++ sb1.mem.drop (sb1.len + t.length))
      (sb1.len + t.length) [.nul] =
      .ok ((s ++ t).map .ch ++ .nul :: sb1.mem.drop (sb1.len + t.length + 1)) := by
    unfold bufWrite
    rw [if_pos (by simp; omega)]
    congr 1
    have hl : (s.map Cell.ch ++ t.map Cell.ch).length = sb1.len + t.length := by simp [hlen]
    rw [← hl, List.take_left, List.drop_append]
    have e1 : (s.map Cell.ch ++ t.map Cell.ch).drop ((s.map Cell.ch ++ t.map Cell.ch).length + [Cell.nul].length) = [] := by
      apply List.drop_of_length_le; simp
    rw [e1, List.drop_drop]
    simp
  rw [hw2]
  refine ⟨_, rfl, ?_, ?_, ?_, _, rfl⟩
  · simp; omega
  · simp [hlen]
  · simp; omega

theorem bufString_text (s : Str) (rest : Buf) : bufString (s.map .ch ++ .nul :: rest) = .ok s := by
  induction s with
  | nil => rfl
  | cons c s ih => simp [bufString, ih]

theorem sbDecouple_ok {sb : StringBuilder} {s : Str} (h : SbHolds sb s) : sbDecouple sb = .ok s := by
  obtain ⟨rest, hr⟩ := h.text
  unfold sbDecouple
  rw [hr]; exact bufString_text s rest

theorem sbAppendAll_ok (ts : List Str) (sb : StringBuilder) (s : Str) (h : SbHolds sb s) :
    ∃ sb', sbAppendAll sb ts = .ok sb' ∧ SbHolds sb' (s ++ ts.flatten) := by
  induction ts generalizing sb s with
  | nil => exact ⟨sb, rfl, by simpa using h⟩
  | cons t ts ih =>
    obtain ⟨sb1, h1, h2⟩ := sbAppend_ok sb s t h
    obtain ⟨sb2, h3, h4⟩ := ih sb1 _ h2
    refine ⟨sb2, ?_, by simpa using h4⟩
    unfold sbAppendAll
    rw [h1]; exact h3

/-- C28. Whatever strings are appended to a new builder, no write leaves the buffer (a write
that does is `.ub`), the growth loop ends, the buffer has room for the text and its
terminator, and the text is the concatenation of the pieces. -/
theorem C28_string_builder (initCap : Nat) (ts : List Str) :
    ∃ sb, sbAppendAll (sbCreate initCap) ts = .ok sb ∧ sb.mem.length = sb.cap ∧
      sb.len = ts.flatten.length ∧ sb.len + 1 ≤ sb.cap ∧ sbDecouple sb = .ok ts.flatten := by
  obtain ⟨sb, h1, h2⟩ := sbAppendAll_ok ts _ _ (sbCreate_holds initCap)
  rw [List.nil_append] at h2
  exact ⟨sb, h1, h2.size, h2.len, h2.fits, sbDecouple_ok h2⟩

example : (match sbAppendAll (sbCreate 1) [cs!"ab", cs!"", cs!"cde"] with
    | .ok sb => decide (sbDecouple sb = .ok cs!"abcde" ∧ sb.cap = 8)
    | .ub => false) = true := by decide +kernel

end Selint
