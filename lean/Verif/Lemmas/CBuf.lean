import Verif.Model.CBuf
import Verif.Lemmas.Basic
/-! # Lemmas about C strings in byte buffers -/

namespace Selint

/-! ## Buffer access -/

theorem LineBytes.rd_at {b : LineBytes} {i : Nat} {P R : LineBytes} {c : Char} (hb : b = P ++ some c :: R)
    (hi : i = P.length) : b.rd i = .ok c := by
  subst hb; subst hi; simp [LineBytes.rd]

theorem LineBytes.wr_at {b : LineBytes} {i : Nat} {P R : LineBytes} {x : Option Char} (c : Char)
    (hb : b = P ++ x :: R) (hi : i = P.length) : b.wr i c = .ok (P ++ some c :: R) := by
  subst hb; subst hi; simp [LineBytes.wr]

theorem scan_at {p : Char → Bool} {b : LineBytes} {i : Nat} {P R : LineBytes} {w : Str} {c : Char} (fuel : Nat)
    (hb : b = P ++ w.map some ++ some c :: R) (hi : i = P.length) (hw : ∀ x ∈ w, p x = true)
    (hc : p c = false) (hf : w.length < fuel) :
    scanWhile p b fuel i = .ok (P.length + w.length) := by
  induction w generalizing fuel i P with
  | nil =>
    cases fuel with
    | zero => simp at hf
    | succ fuel =>
      rw [scanWhile, LineBytes.rd_at (c := c) (P := P) (R := R) (by simpa using hb) hi]
      simp [hc, hi]
  | cons x w ih =>
    cases fuel with
    | zero => simp at hf
    | succ fuel =>
      rw [scanWhile, LineBytes.rd_at (c := x) (P := P) (R := w.map some ++ some c :: R)
        (by simpa using hb) hi]
      simp only [Res.bind_ok, hw x (by simp), if_true]
      rw [ih (P := P ++ [some x]) fuel (by simpa using hb) (by simp [hi])
        (fun y hy => hw y (by simp [hy])) (by simp at hf; omega)]
      simp; omega

/-- A scan that finds no end is undefined. -/
theorem scan_ub {p : Char → Bool} {b : LineBytes} (fuel i : Nat)
    (h : ∀ j c, i ≤ j → b[j]? = some (some c) → p c = true) : scanWhile p b fuel i = .ub := by
  induction fuel generalizing i with
  | zero => rfl
  | succ fuel ih =>
    rw [scanWhile]
    unfold LineBytes.rd
    split
    · rename_i c hc
      simp only [Res.bind_ok, h i c (Nat.le_refl _) hc, if_true]
      exact ih (i + 1) fun j c hj => h j c (by omega)
    · rfl

theorem str_at {b : LineBytes} {i : Nat} {P R : LineBytes} {w : Str} (fuel : Nat)
    (hb : b = P ++ w.map some ++ some '\x00' :: R) (hi : i = P.length)
    (hw : ∀ x ∈ w, x ≠ '\x00') (hf : w.length < fuel) : b.str fuel i = .ok w := by
  induction w generalizing fuel i P with
  | nil =>
    cases fuel with
    | zero => simp at hf
    | succ fuel =>
      rw [LineBytes.str, LineBytes.rd_at (c := '\x00') (P := P) (R := R) (by simpa using hb) hi]
      simp
  | cons x w ih =>
    cases fuel with
    | zero => simp at hf
    | succ fuel =>
      rw [LineBytes.str, LineBytes.rd_at (c := x) (P := P) (R := w.map some ++ some '\x00' :: R)
        (by simpa using hb) hi]
      simp only [Res.bind_ok, hw x (by simp), if_false]
      rw [ih (P := P ++ [some x]) fuel (by simpa using hb) (by simp [hi])
        (fun y hy => hw y (by simp [hy])) (by simp at hf; omega)]
      rfl

/-! ## strtok -/

section
variable {delim : Char → Bool}

/-- A token ended by a delimiter. -/
theorem strtokB_delim {b : LineBytes} {i : Nat} {P R : LineBytes} {ds t : Str} {x : Char}
    (hb : b = P ++ (ds ++ t).map some ++ some x :: R)
    (hi : i = P.length) (hds : ∀ c ∈ ds, delim c = true)
    (ht : ∀ c ∈ t, delim c = false ∧ c ≠ '\x00') (hne : t ≠ []) (hx : delim x = true)
    (hx0 : x ≠ '\x00') :
    strtokB delim b i =
      .ok (P ++ (ds ++ t).map some ++ some '\x00' :: R, i + ds.length + t.length + 1,
        some (i + ds.length)) := by
  obtain ⟨y, t', rfl⟩ := List.exists_cons_of_ne_nil hne
  have e1 := scan_at (p := delim) (P := P) (w := ds) (c := y)
      (R := t'.map some ++ some x :: R) (b := b) (i := i) (b.length + 1) (by simp [hb]) hi
      hds (ht y (by simp)).1 (by rw [hb]; simp; omega)
  have e2 := scan_at (p := fun c => !delim c && c ≠ '\x00') (P := P ++ ds.map some) (w := y :: t')
      (c := x) (R := R) (b := b) (i := P.length + ds.length) (b.length + 1) (by simp [hb]) (by simp)
      (fun c hc => by simp [ht c hc]) (by simp [hx]) (by rw [hb]; simp; omega)
  unfold strtokB
  rw [e1, Res.bind_ok, LineBytes.rd_at (P := P ++ ds.map some) (c := y)
    (R := t'.map some ++ some x :: R) (by simp [hb]) (by simp), Res.bind_ok,
    if_neg (ht y (by simp)).2, e2, Res.bind_ok,
    LineBytes.rd_at (P := P ++ (ds ++ y :: t').map some) (c := x) (R := R) hb (by simp; omega),
    Res.bind_ok, if_neg hx0,
    LineBytes.wr_at (P := P ++ (ds ++ y :: t').map some) (x := some x) (R := R) '\x00' hb
      (by simp; omega)]
  simp [hi]

/-- A token ended by the end of the string. -/
theorem strtokB_last {b : LineBytes} {i : Nat} {P R : LineBytes} {ds t : Str}
    (hb : b = P ++ (ds ++ t).map some ++ some '\x00' :: R)
    (hi : i = P.length) (hds : ∀ c ∈ ds, delim c = true)
    (ht : ∀ c ∈ t, delim c = false ∧ c ≠ '\x00') (hne : t ≠ []) :
    strtokB delim b i = .ok (b, i + ds.length + t.length, some (i + ds.length)) := by
  obtain ⟨y, t', rfl⟩ := List.exists_cons_of_ne_nil hne
  have e1 := scan_at (p := delim) (P := P) (w := ds) (c := y)
      (R := t'.map some ++ some '\x00' :: R) (b := b) (i := i) (b.length + 1) (by simp [hb]) hi
      hds (ht y (by simp)).1 (by rw [hb]; simp; omega)
  have e2 := scan_at (p := fun c => !delim c && c ≠ '\x00') (P := P ++ ds.map some) (w := y :: t')
      (c := '\x00') (R := R) (b := b) (i := P.length + ds.length) (b.length + 1) (by simp [hb])
      (by simp) (fun c hc => by simp [ht c hc]) (by simp) (by rw [hb]; simp; omega)
  unfold strtokB
  rw [e1, Res.bind_ok, LineBytes.rd_at (P := P ++ ds.map some) (c := y)
    (R := t'.map some ++ some '\x00' :: R) (by simp [hb]) (by simp), Res.bind_ok,
    if_neg (ht y (by simp)).2, e2, Res.bind_ok,
    LineBytes.rd_at (P := P ++ (ds ++ y :: t').map some) (c := '\x00') (R := R) hb (by simp; omega),
    Res.bind_ok, if_pos rfl]
  simp [hi]

/-- No token left. -/
theorem strtokB_none {b : LineBytes} {i : Nat} {P R : LineBytes} {ds : Str}
    (hd : delim '\x00' = false) (hb : b = P ++ ds.map some ++ some '\x00' :: R)
    (hi : i = P.length) (hds : ∀ c ∈ ds, delim c = true) :
    strtokB delim b i = .ok (b, i + ds.length, none) := by
  have e1 := scan_at (p := delim) (P := P) (w := ds) (c := '\x00')
      (R := R) (b := b) (i := i) (b.length + 1) (by simp [hb]) hi
      hds hd (by rw [hb]; simp; omega)
  unfold strtokB
  rw [e1, Res.bind_ok, LineBytes.rd_at (P := P ++ ds.map some) (c := '\x00') (R := R)
    (by simp [hb]) (by simp), Res.bind_ok, if_pos rfl]
  simp [hi]

end

end Selint
