import Verif.Spec.ModulesConf
import Verif.Lemmas.CBuf
/-!
# C45: modules.conf

Every line `name = status` (white space before the `=` and behind the status) enters the
module with its status, without looking beyond the line; blank lines and comments are
ignored; lines without `=` or with a second one are an error. Without white space before
`=` the code misbehaves (`C45_false_…`).
-/

namespace Selint

open Spec

/-! ## Characters -/

theorem isSpaceMc_iff (c : Char) : isSpaceMc c = true ↔ isWs c := by
  simp [isSpaceMc, isWs, or_assoc]

theorem isSpaceMc_false (c : Char) : isSpaceMc c = false ↔ ¬ isWs c := by
  rw [← isSpaceMc_iff]; simp

theorem ws_props {c : Char} (h : isWs c) : c ≠ '=' ∧ c ≠ '\x00' ∧ c ≠ '#' := by
  rcases h with rfl | rfl | rfl | rfl <;> decide

/-! ## The library functions -/

theorem stripSpace_at {b : LineBytes} {i : Nat} {P R : LineBytes} {ws w : Str} {x : Char}
    (hb : b = P ++ (ws ++ w).map some ++ some x :: R) (hi : i = P.length)
    (hws : ∀ c ∈ ws, isWs c) (hw : ∀ c ∈ w, ¬ isWs c) (hne : w ≠ []) (hx : isWs x) :
    stripSpace b i = .ok (P ++ (ws ++ w).map some ++ some '\x00' :: R, i + ws.length) := by
  obtain ⟨y, w', rfl⟩ := List.exists_cons_of_ne_nil hne
  have e1 : skipSpaces b i = .ok (P.length + ws.length) :=
    scan_at (P := P) (w := ws) (c := y) (R := w'.map some ++ some x :: R) _ (by simp [hb]) hi
      (fun c hc => (isSpaceMc_iff c).2 (hws c hc)) ((isSpaceMc_false y).2 (hw y (by simp)))
      (by rw [hb]; simp; omega)
  have e2 : skipNonSpaces b (P.length + ws.length) = .ok (P.length + ws.length + (y :: w').length) := by
    have := scan_at (p := fun c => !isSpaceMc c) (P := P ++ ws.map some) (w := y :: w') (c := x) (R := R)
      (b := b) (i := P.length + ws.length) (b.length + 1) (by simp [hb]) (by simp)
      (fun c hc => by simp [(isSpaceMc_false c).2 (hw c hc)])
      (by simp [(isSpaceMc_iff x).2 hx]) (by rw [hb]; simp; omega)
    unfold skipNonSpaces
    rw [this]; simp
  unfold stripSpace
  rw [e1, Res.bind_ok, e2, Res.bind_ok,
    LineBytes.wr_at (P := P ++ (ws ++ y :: w').map some) (R := R) (x := some x) '\x00' hb
      (by simp; omega)]
  simp [hi]

/-- A token ended by `=`. -/
theorem strtokEq_delim {b : LineBytes} {i : Nat} {P R : LineBytes} {t : Str}
    (hb : b = P ++ t.map some ++ some '=' :: R)
    (hi : i = P.length) (ht : ∀ c ∈ t, c ≠ '=' ∧ c ≠ '\x00') (hne : t ≠ []) :
    strtokEq b i = .ok (P ++ t.map some ++ some '\x00' :: R, i + t.length + 1, some i) := by
  have := strtokB_delim (delim := fun c => c = '=') (ds := []) (t := t) (x := '=') (P := P) (R := R)
    (by simpa using hb) hi (by simp) (fun c hc => by simpa using ht c hc) hne (by simp) (by simp)
  simpa [strtokEq] using this

/-- A token ended by the end of the string. -/
theorem strtokEq_last {b : LineBytes} {i : Nat} {P R : LineBytes} {t : Str}
    (hb : b = P ++ t.map some ++ some '\x00' :: R)
    (hi : i = P.length) (ht : ∀ c ∈ t, c ≠ '=' ∧ c ≠ '\x00') (hne : t ≠ []) :
    strtokEq b i = .ok (b, i + t.length, some i) := by
  have := strtokB_last (delim := fun c => c = '=') (ds := []) (t := t) (P := P) (R := R)
    (by simpa using hb) hi (by simp) (fun c hc => by simpa using ht c hc) hne
  simpa [strtokEq] using this

/-- No token left. -/
theorem strtokEq_none {b : LineBytes} {i : Nat} {P R : LineBytes} (hb : b = P ++ some '\x00' :: R)
    (hi : i = P.length) : strtokEq b i = .ok (b, i, none) := by
  have := strtokB_none (delim := fun c => c = '=') (ds := []) (P := P) (R := R) (by simp)
    (by simpa using hb) hi (by simp)
  simpa [strtokEq] using this

/-- The tests for blank lines and comments let a line with a first word through. -/
theorem modulesLine_word {line : Str} {tail : LineBytes} {ws w rest : Str} (hl : line = ws ++ w ++ rest)
    (hws : ∀ c ∈ ws, isWs c) (hw : IsWord w) (hc : w.head? ≠ some '#') (hlen : 1 < line.length) :
    modulesLine (lineBuf line tail) line.length = tokenizeLine (lineBuf line tail) := by
  obtain ⟨y, w', rfl⟩ := List.exists_cons_of_ne_nil hw.1
  obtain ⟨hy1, hy2, hy3⟩ := hw.2 y (by simp)
  have hy4 : y ≠ '#' := by rintro rfl; simp at hc
  have e0 : ∃ c, (lineBuf line tail).rd 0 = .ok c ∧ c ≠ '#' := by
    cases ws with
    | nil =>
      exact ⟨y, LineBytes.rd_at (P := []) (R := (w' ++ rest).map some ++ some '\x00' :: tail)
        (by simp [lineBuf, hl]) rfl, hy4⟩
    | cons z ws' =>
      exact ⟨z, LineBytes.rd_at (P := []) (R := (ws' ++ y :: w' ++ rest).map some ++ some '\x00' :: tail)
        (by simp [lineBuf, hl]) rfl, (ws_props (hws z (by simp))).2.2⟩
  obtain ⟨c, hc1, hc2⟩ := e0
  have e1 : skipSpacesNul (lineBuf line tail) 0 = .ok ws.length := by
    have := scan_at (p := fun c => c ≠ '\x00' && isSpaceMc c) (P := []) (w := ws) (c := y)
      (R := (w' ++ rest).map some ++ some '\x00' :: tail) (b := lineBuf line tail) (i := 0)
      ((lineBuf line tail).length + 1) (by simp [lineBuf, hl]) rfl
      (fun c hc => by simp [(ws_props (hws c hc)).2.1, (isSpaceMc_iff c).2 (hws c hc)])
      (by simp [(isSpaceMc_false y).2 hy1]) (by simp [lineBuf, hl]; omega)
    unfold skipSpacesNul; rw [this]; simp
  unfold modulesLine
  rw [if_neg (by omega), hc1, Res.bind_ok, if_neg hc2, e1, Res.bind_ok,
    LineBytes.rd_at (P := ws.map some) (c := y) (R := (w' ++ rest).map some ++ some '\x00' :: tail)
      (by simp [lineBuf, hl]) (by simp), Res.bind_ok, if_neg (by simp [hy4, hy3])]

/-! ## C45 -/

/-- **C45.** A line `name = status` with white space before the `=` and behind the status
enters exactly this name with this status, whatever the buffer holds behind the line. -/
theorem C45_entry_partial (line name status : Str) (h : EntryLine line name status) (tail : LineBytes) :
    modulesLine (lineBuf line tail) line.length = .ok (.entry name status) := by
  obtain ⟨ws0, g1, g2, g3, tr, hl, h0, h1, h2, h3, hg1, hg3, htr⟩ := h.shape
  obtain ⟨x, g1', rfl⟩ := List.exists_cons_of_ne_nil hg1
  obtain ⟨z, g3', rfl⟩ := List.exists_cons_of_ne_nil hg3
  have hname := h.nameWord
  have hstatus := h.statusWord
  rw [modulesLine_word (ws := ws0) (w := name) (rest := (x :: g1') ++ '=' :: (g2 ++ status ++ z :: g3' ++ tr))
    (by simp [hl]) h0 hname h.noComment (by
      rw [hl]; simp; have := List.length_pos_iff.2 hname.1; omega)]
  have key : ∀ (c : Char), isWs c → c ≠ '=' ∧ c ≠ '\x00' := fun c hc => ⟨(ws_props hc).1, (ws_props hc).2.1⟩
  -- first token
  have t1 : strtokEq (lineBuf line tail) 0 = .ok
      ((ws0 ++ name ++ x :: g1').map some ++ some '\x00' ::
        ((g2 ++ status ++ z :: g3' ++ tr).map some ++ some '\x00' :: tail),
       (ws0 ++ name ++ x :: g1').length + 1, some 0) := by
    have := strtokEq_delim (b := lineBuf line tail) (i := 0) (P := []) (t := ws0 ++ name ++ x :: g1')
      (R := (g2 ++ status ++ z :: g3' ++ tr).map some ++ some '\x00' :: tail)
      (by simp [lineBuf, hl]) rfl (by
        intro c hc
        simp only [List.mem_append] at hc
        rcases hc with (hc | hc) | hc
        · exact key c (h0 c hc)
        · exact (hname.2 c hc).2
        · exact key c (h1 c hc)) (by simp)
    rw [this]; simp
  -- the name
  have s1 := stripSpace_at (i := 0) (P := []) (ws := ws0) (w := name) (x := x)
      (R := g1'.map some ++ some '\x00' ::
        ((g2 ++ status ++ z :: g3' ++ tr).map some ++ some '\x00' :: tail))
      (b := (ws0 ++ name ++ x :: g1').map some ++ some '\x00' ::
        ((g2 ++ status ++ z :: g3' ++ tr).map some ++ some '\x00' :: tail))
      (by simp) rfl h0 (fun c hc => (hname.2 c hc).1) hname.1 (h1 x (by simp))
  -- second token
  have t2 := strtokEq_last (i := (ws0 ++ name ++ x :: g1').length + 1)
      (P := (ws0 ++ name).map some ++ some '\x00' :: (g1'.map some ++ [some '\x00']))
      (t := g2 ++ status ++ z :: g3' ++ tr) (R := tail)
      (b := [] ++ (ws0 ++ name).map some ++ some '\x00' :: (g1'.map some ++ some '\x00' ::
        ((g2 ++ status ++ z :: g3' ++ tr).map some ++ some '\x00' :: tail)))
      (by simp) (by simp; omega) (by
        intro c hc
        simp only [List.mem_append] at hc
        rcases hc with ((hc | hc) | hc) | hc
        · exact key c (h2 c hc)
        · exact (hstatus.2 c hc).2
        · exact key c (h3 c hc)
        · exact htr c hc) (by simp)
  -- the status
  have s2 := stripSpace_at (i := (ws0 ++ name ++ x :: g1').length + 1)
      (P := (ws0 ++ name).map some ++ some '\x00' :: (g1'.map some ++ [some '\x00']))
      (ws := g2) (w := status) (x := z) (R := (g3' ++ tr).map some ++ some '\x00' :: tail)
      (b := [] ++ (ws0 ++ name).map some ++ some '\x00' :: (g1'.map some ++ some '\x00' ::
        ((g2 ++ status ++ z :: g3' ++ tr).map some ++ some '\x00' :: tail)))
      (by simp) (by simp; omega) h2 (fun c hc => (hstatus.2 c hc).1) hstatus.1 (h3 z (by simp))
  generalize hb3 : ((ws0 ++ name).map some ++ some '\x00' :: (g1'.map some ++ [some '\x00']) ++
    (g2 ++ status).map some ++ some '\x00' :: ((g3' ++ tr).map some ++ some '\x00' :: tail) : LineBytes) = b3
    at s2
  have n1 : LineBytes.str b3 (b3.length + 1) (0 + ws0.length) = .ok name :=
    str_at (P := ws0.map some) (w := name) (R := g1'.map some ++ some '\x00' ::
      ((g2 ++ status).map some ++ some '\x00' :: ((g3' ++ tr).map some ++ some '\x00' :: tail))) _
      (by simp [← hb3]) (by simp) (fun c hc => (hname.2 c hc).2.2) (by simp [← hb3]; omega)
  have n2 : LineBytes.str b3 (b3.length + 1) ((ws0 ++ name ++ x :: g1').length + 1 + g2.length) = .ok status :=
    str_at (P := (ws0 ++ name).map some ++ some '\x00' :: (g1'.map some ++ some '\x00' :: g2.map some))
      (w := status) (R := (g3' ++ tr).map some ++ some '\x00' :: tail) _
      (by simp [← hb3]) (by simp; omega) (fun c hc => (hstatus.2 c hc).2.2) (by simp [← hb3]; omega)
  have t3 := strtokEq_none (b := b3)
      (i := (ws0 ++ name ++ x :: g1').length + 1 + (g2 ++ status ++ z :: g3' ++ tr).length)
      (P := (ws0 ++ name).map some ++ some '\x00' :: (g1'.map some ++ [some '\x00']) ++
        (g2 ++ status).map some ++ some '\x00' :: (g3' ++ tr).map some) (R := tail)
      (by simp [← hb3]) (by simp; omega)
  unfold tokenizeLine
  simp only [t1, Res.bind_ok]
  rw [s1, Res.bind_ok]
  dsimp only
  rw [t2, Res.bind_ok]
  dsimp only
  rw [s2, Res.bind_ok]
  dsimp only
  rw [n1, Res.bind_ok, n2, Res.bind_ok, t3]
  rfl

/-- **C45.** Blank lines and comments are ignored. -/
theorem C45_ignored (line : Str) (h : IgnoredLine line) (tail : LineBytes) :
    modulesLine (lineBuf line tail) line.length = .ok .skip := by
  obtain ⟨ws, rest, hl, hws, hr⟩ := h
  unfold modulesLine
  by_cases hlen : line.length ≤ 1
  · rw [if_pos hlen]; rfl
  · rw [if_neg hlen]
    have hend : ∃ c R, lineBuf line tail = ws.map some ++ some c :: R ∧ (c = '#' ∨ c = '\x00') := by
      rcases hr with rfl | hr
      · exact ⟨'\x00', tail, by simp [lineBuf, hl], .inr rfl⟩
      · obtain ⟨c, r, rfl⟩ : ∃ c r, rest = c :: r := by
          cases rest with
          | nil => simp at hr
          | cons c r => exact ⟨c, r, rfl⟩
        simp at hr
        exact ⟨c, r.map some ++ some '\x00' :: tail, by simp [lineBuf, hl], .inl hr⟩
    obtain ⟨c, R, hb, hc⟩ := hend
    have e1 : skipSpacesNul (lineBuf line tail) 0 = .ok ws.length := by
      have := scan_at (p := fun c => c ≠ '\x00' && isSpaceMc c) (P := []) (w := ws) (c := c)
        (R := R) (b := lineBuf line tail) (i := 0)
        ((lineBuf line tail).length + 1) (by simp [hb]) rfl
        (fun c hc => by simp [(ws_props (hws c hc)).2.1, (isSpaceMc_iff c).2 (hws c hc)])
        (by rcases hc with rfl | rfl <;> decide) (by simp [hb]; omega)
      unfold skipSpacesNul; rw [this]; simp
    have e0 : ∃ x, (lineBuf line tail).rd 0 = .ok x := by
      cases ws with
      | nil => exact ⟨c, LineBytes.rd_at (P := []) (R := R) (by simpa using hb) rfl⟩
      | cons z ws' =>
        exact ⟨z, LineBytes.rd_at (P := []) (R := ws'.map some ++ some c :: R) (by simpa using hb) rfl⟩
    obtain ⟨x, hx⟩ := e0
    rw [hx, Res.bind_ok]
    split
    · rfl
    · rw [e1, Res.bind_ok, LineBytes.rd_at (P := ws.map some) (c := c) (R := R) hb (by simp), Res.bind_ok,
        if_pos hc]
      rfl

/-- **C45.** A line with a first word but without `=` is an error. -/
theorem C45_missing_status (indent w trailer : Str) (x : Char) (h0 : ∀ c ∈ indent, isWs c)
    (hw : IsWord w) (hc : w.head? ≠ some '#') (hx : isWs x) (htr : IsTrailer trailer) (tail : LineBytes) :
    modulesLine (lineBuf (indent ++ w ++ x :: trailer) tail) (indent ++ w ++ x :: trailer).length =
      .ok .error := by
  rw [modulesLine_word (ws := indent) (w := w) (rest := x :: trailer) rfl h0 hw hc (by
    simp; have := List.length_pos_iff.2 hw.1; omega)]
  have t1 := strtokEq_last (b := lineBuf (indent ++ w ++ x :: trailer) tail) (i := 0) (P := [])
    (t := indent ++ w ++ x :: trailer) (R := tail) (by simp [lineBuf]) rfl (by
      intro c hc
      simp only [List.mem_append, List.mem_cons] at hc
      rcases hc with (hc | hc) | rfl | hc
      · exact ⟨(ws_props (h0 c hc)).1, (ws_props (h0 c hc)).2.1⟩
      · exact (hw.2 c hc).2
      · exact ⟨(ws_props hx).1, (ws_props hx).2.1⟩
      · exact htr c hc) (by simp)
  have s1 := stripSpace_at (b := lineBuf (indent ++ w ++ x :: trailer) tail) (i := 0) (P := [])
    (ws := indent) (w := w) (x := x) (R := trailer.map some ++ some '\x00' :: tail)
    (by simp [lineBuf]) rfl h0 (fun c hc => (hw.2 c hc).1) hw.1 hx
  have t2 := strtokEq_none (i := 0 + (indent ++ w ++ x :: trailer).length)
    (b := [] ++ (indent ++ w).map some ++ some '\x00' :: (trailer.map some ++ some '\x00' :: tail))
    (P := (indent ++ w).map some ++ some '\x00' :: trailer.map some) (R := tail)
    (by simp) (by simp)
  unfold tokenizeLine
  simp only [t1, Res.bind_ok]
  rw [s1, Res.bind_ok]
  dsimp only
  rw [t2]
  rfl

/-- **C45.** A line with a second `=` is an error (the first two fields have been entered by
then). -/
theorem C45_second_equals (line1 name status : Str) (h : EntryLine line1 name status) (rest : Str)
    (hr : IsTrailer rest) (hne : rest ≠ []) (tail : LineBytes) :
    modulesLine (lineBuf (line1 ++ '=' :: rest) tail) (line1 ++ '=' :: rest).length =
      .ok (.entryThenError name status) := by
  obtain ⟨ws0, g1, g2, g3, tr, hl, h0, h1, h2, h3, hg1, hg3, htr⟩ := h.shape
  obtain ⟨x, g1', rfl⟩ := List.exists_cons_of_ne_nil hg1
  obtain ⟨z, g3', rfl⟩ := List.exists_cons_of_ne_nil hg3
  have hname := h.nameWord
  have hstatus := h.statusWord
  rw [modulesLine_word (ws := ws0) (w := name)
    (rest := (x :: g1') ++ '=' :: (g2 ++ status ++ z :: g3' ++ tr) ++ '=' :: rest)
    (by simp [hl]) h0 hname h.noComment (by
      rw [hl]; simp; have := List.length_pos_iff.2 hname.1; omega)]
  have key : ∀ (c : Char), isWs c → c ≠ '=' ∧ c ≠ '\x00' :=
    fun c hc => ⟨(ws_props hc).1, (ws_props hc).2.1⟩
  have t1 : strtokEq (lineBuf (line1 ++ '=' :: rest) tail) 0 = .ok
      ((ws0 ++ name ++ x :: g1').map some ++ some '\x00' ::
        ((g2 ++ status ++ z :: g3' ++ tr).map some ++ some '=' :: (rest.map some ++ some '\x00' :: tail)),
       (ws0 ++ name ++ x :: g1').length + 1, some 0) := by
    have := strtokEq_delim (b := lineBuf (line1 ++ '=' :: rest) tail) (i := 0) (P := [])
      (t := ws0 ++ name ++ x :: g1')
      (R := (g2 ++ status ++ z :: g3' ++ tr).map some ++ some '=' :: (rest.map some ++ some '\x00' :: tail))
      (by simp [lineBuf, hl]) rfl (by
        intro c hc
        simp only [List.mem_append] at hc
        rcases hc with (hc | hc) | hc
        · exact key c (h0 c hc)
        · exact (hname.2 c hc).2
        · exact key c (h1 c hc)) (by simp)
    rw [this]; simp
  have s1 := stripSpace_at (i := 0) (P := []) (ws := ws0) (w := name) (x := x)
      (R := g1'.map some ++ some '\x00' ::
        ((g2 ++ status ++ z :: g3' ++ tr).map some ++ some '=' :: (rest.map some ++ some '\x00' :: tail)))
      (b := (ws0 ++ name ++ x :: g1').map some ++ some '\x00' ::
        ((g2 ++ status ++ z :: g3' ++ tr).map some ++ some '=' :: (rest.map some ++ some '\x00' :: tail)))
      (by simp) rfl h0 (fun c hc => (hname.2 c hc).1) hname.1 (h1 x (by simp))
  have t2 := strtokEq_delim (i := (ws0 ++ name ++ x :: g1').length + 1)
      (P := (ws0 ++ name).map some ++ some '\x00' :: (g1'.map some ++ [some '\x00']))
      (t := g2 ++ status ++ z :: g3' ++ tr) (R := rest.map some ++ some '\x00' :: tail)
      (b := [] ++ (ws0 ++ name).map some ++ some '\x00' :: (g1'.map some ++ some '\x00' ::
        ((g2 ++ status ++ z :: g3' ++ tr).map some ++ some '=' :: (rest.map some ++ some '\x00' :: tail))))
      (by simp) (by simp; omega) (by
        intro c hc
        simp only [List.mem_append] at hc
        rcases hc with ((hc | hc) | hc) | hc
        · exact key c (h2 c hc)
        · exact (hstatus.2 c hc).2
        · exact key c (h3 c hc)
        · exact htr c hc) (by simp)
  have s2 := stripSpace_at (i := (ws0 ++ name ++ x :: g1').length + 1)
      (P := (ws0 ++ name).map some ++ some '\x00' :: (g1'.map some ++ [some '\x00']))
      (ws := g2) (w := status) (x := z)
      (R := (g3' ++ tr).map some ++ some '\x00' :: (rest.map some ++ some '\x00' :: tail))
      (b := (ws0 ++ name).map some ++ some '\x00' :: (g1'.map some ++ [some '\x00']) ++
        (g2 ++ status ++ z :: g3' ++ tr).map some ++ some '\x00' :: (rest.map some ++ some '\x00' :: tail))
      (by simp) (by simp; omega) h2 (fun c hc => (hstatus.2 c hc).1) hstatus.1 (h3 z (by simp))
  generalize hb3 : ((ws0 ++ name).map some ++ some '\x00' :: (g1'.map some ++ [some '\x00']) ++
    (g2 ++ status).map some ++ some '\x00' :: ((g3' ++ tr).map some ++ some '\x00' ::
      (rest.map some ++ some '\x00' :: tail)) : LineBytes) = b3 at s2
  have n1 : LineBytes.str b3 (b3.length + 1) (0 + ws0.length) = .ok name :=
    str_at (P := ws0.map some) (w := name) (R := g1'.map some ++ some '\x00' ::
      ((g2 ++ status).map some ++ some '\x00' :: ((g3' ++ tr).map some ++ some '\x00' ::
        (rest.map some ++ some '\x00' :: tail)))) _
      (by simp [← hb3]) (by simp) (fun c hc => (hname.2 c hc).2.2) (by simp [← hb3]; omega)
  have n2 : LineBytes.str b3 (b3.length + 1) ((ws0 ++ name ++ x :: g1').length + 1 + g2.length) = .ok status :=
    str_at (P := (ws0 ++ name).map some ++ some '\x00' :: (g1'.map some ++ some '\x00' :: g2.map some))
      (w := status) (R := (g3' ++ tr).map some ++ some '\x00' :: (rest.map some ++ some '\x00' :: tail)) _
      (by simp [← hb3]) (by simp; omega) (fun c hc => (hstatus.2 c hc).2.2) (by simp [← hb3]; omega)
  have t3 := strtokEq_last (b := b3)
      (i := (ws0 ++ name ++ x :: g1').length + 1 + (g2 ++ status ++ z :: g3' ++ tr).length + 1)
      (P := (ws0 ++ name).map some ++ some '\x00' :: (g1'.map some ++ [some '\x00']) ++
        (g2 ++ status).map some ++ some '\x00' :: (g3' ++ tr).map some ++ [some '\x00'])
      (t := rest) (R := tail)
      (by simp [← hb3]) (by simp; omega) hr hne
  unfold tokenizeLine
  simp only [t1, Res.bind_ok]
  rw [s1, Res.bind_ok]
  dsimp only
  rw [t2, Res.bind_ok]
  dsimp only
  rw [s2, Res.bind_ok]
  dsimp only
  rw [n1, Res.bind_ok, n2, Res.bind_ok, t3]
  rfl

/-- Well-formed lines are entered in order, whatever follows them. -/
theorem loadModulesSource_append (m : Maps) (lines rest : List (Str × LineBytes))
    (said : List (Option (Str × Str))) (h : lines.length = said.length)
    (hl : ∀ i (hi : i < lines.length), ModLine (lines[i]).1 (said[i]'(h ▸ hi))) :
    loadModulesSource m (lines ++ rest) =
      loadModulesSource ((said.filterMap id).foldl (fun m e => m.insertMod e.1 e.2) m) rest := by
  induction lines generalizing m said with
  | nil =>
    cases said with
    | nil => rfl
    | cons _ _ => simp at h
  | cons l ls ih =>
    cases said with
    | nil => simp at h
    | cons s ss =>
      have h0 := hl 0 (by simp)
      have ih' := fun m => ih m ss (by simpa using h) (fun i hi => by
        have := hl (i + 1) (by simp; omega)
        simpa using this)
      obtain ⟨line, tail⟩ := l
      simp only [List.getElem_cons_zero] at h0
      conv => lhs; rw [List.cons_append]; unfold loadModulesSource
      cases h0 with
      | ignored hi =>
        rw [C45_ignored line hi tail, Res.bind_ok]
        simp only [ih', List.filterMap_cons, id]
      | entry he =>
        rw [C45_entry_partial line _ _ he tail, Res.bind_ok]
        simp only [ih', List.filterMap_cons, id, List.foldl_cons]

/-- **C45.** A file of such lines loads successfully, and the module table afterwards is the
one with the entries of the file entered in order. -/
theorem C45_file_partial (m : Maps) (lines : List (Str × LineBytes)) (said : List (Option (Str × Str)))
    (h : lines.length = said.length)
    (hl : ∀ i (hi : i < lines.length), ModLine (lines[i]).1 (said[i]'(h ▸ hi))) :
    loadModulesSource m lines =
      .ok (true, (said.filterMap id).foldl (fun m e => m.insertMod e.1 e.2) m) := by
  have := loadModulesSource_append m lines [] said h hl
  rw [List.append_nil] at this
  rw [this]
  rfl

/-- The first line without a status ends the reading with an error; the entries before it
stay, nothing behind it is looked at. -/
theorem C45_stops_at_missing_status (m : Maps) (lines rest : List (Str × LineBytes))
    (said : List (Option (Str × Str))) (h : lines.length = said.length)
    (hl : ∀ i (hi : i < lines.length), ModLine (lines[i]).1 (said[i]'(h ▸ hi)))
    (indent w trailer : Str) (x : Char) (h0 : ∀ c ∈ indent, isWs c)
    (hw : IsWord w) (hc : w.head? ≠ some '#') (hx : isWs x) (htr : IsTrailer trailer)
    (tail : LineBytes) :
    loadModulesSource m (lines ++ (indent ++ w ++ x :: trailer, tail) :: rest) =
      .ok (false, (said.filterMap id).foldl (fun m e => m.insertMod e.1 e.2) m) := by
  rw [loadModulesSource_append m lines _ said h hl]
  unfold loadModulesSource
  rw [C45_missing_status indent w trailer x h0 hw hc hx htr tail]
  rfl

/-- A line with a second `=` ends the reading with an error, but its entry is made first. -/
theorem C45_stops_at_second_equals (m : Maps) (lines rest : List (Str × LineBytes))
    (said : List (Option (Str × Str))) (h : lines.length = said.length)
    (hl : ∀ i (hi : i < lines.length), ModLine (lines[i]).1 (said[i]'(h ▸ hi)))
    (line name status : Str) (he : EntryLine line name status) (more : Str)
    (hr : IsTrailer more) (hne : more ≠ []) (tail : LineBytes) :
    loadModulesSource m (lines ++ (line ++ '=' :: more, tail) :: rest) =
      .ok (false, (said.filterMap id ++ [(name, status)]).foldl
        (fun m e => m.insertMod e.1 e.2) m) := by
  rw [loadModulesSource_append m lines _ said h hl]
  unfold loadModulesSource
  rw [C45_second_equals line name status he more hr hne tail]
  simp

/-! ## Where the property fails -/

/-- No initialised white space behind the line: for instance a buffer just allocated. -/
def NoWs (tail : LineBytes) : Prop := ∀ c, some c ∈ tail → ¬ isWs c

/-- **C45 fails** for every line `name=status` without spaces: `strip_space` runs over the
NUL that `strtok` put in place of the `=` and erases the newline; applied to the status it
then runs past the end of the line and, finding no white space, out of the buffer. -/
theorem C45_false_no_spaces (name status : Str) (hn : IsWord name) (hs : IsWord status)
    (hc : name.head? ≠ some '#') (tail : LineBytes) (ht : NoWs tail) :
    modulesLine (lineBuf (name ++ '=' :: (status ++ cs!"\n")) tail)
      (name ++ '=' :: (status ++ cs!"\n")).length = .ub := by
  rw [modulesLine_word (ws := []) (w := name) (rest := '=' :: (status ++ cs!"\n")) (by simp)
    (by simp) hn hc (by simp; have := List.length_pos_iff.2 hn.1; omega)]
  have t1 := strtokEq_delim (b := lineBuf (name ++ '=' :: (status ++ cs!"\n")) tail) (i := 0)
    (P := []) (t := name) (R := (status ++ cs!"\n").map some ++ some '\x00' :: tail)
    (by simp [lineBuf]) rfl (fun c hc => (hn.2 c hc).2) hn.1
  have s1 := stripSpace_at (i := 0) (P := []) (ws := []) (w := name ++ '\x00' :: status) (x := '\n')
    (R := some '\x00' :: tail)
    (b := [] ++ name.map some ++ some '\x00' :: ((status ++ cs!"\n").map some ++ some '\x00' :: tail))
    (by simp) rfl (by simp) (by
      intro c hc
      simp only [List.mem_append, List.mem_cons] at hc
      rcases hc with hc | rfl | hc
      · exact (hn.2 c hc).1
      · simp [isWs]
      · exact (hs.2 c hc).1) (by simp) (by simp [isWs])
  have t2 := strtokEq_last (i := 0 + name.length + 1) (P := name.map some ++ [some '\x00'])
    (t := status) (R := some '\x00' :: tail)
    (b := [] ++ ([] ++ (name ++ '\x00' :: status)).map some ++ some '\x00' :: (some '\x00' :: tail))
    (by simp) (by simp) (fun c hc => (hs.2 c hc).2) hs.1
  unfold tokenizeLine
  simp only [t1, Res.bind_ok]
  rw [s1, Res.bind_ok]
  dsimp only
  rw [t2, Res.bind_ok]
  dsimp only
  have hub : stripSpace ([] ++ ([] ++ (name ++ '\x00' :: status)).map some ++
      some '\x00' :: (some '\x00' :: tail)) (0 + name.length + 1) = .ub := by
    obtain ⟨y, st', rfl⟩ := List.exists_cons_of_ne_nil hs.1
    have e1 := scan_at (p := isSpaceMc) (w := []) (c := y) (P := name.map some ++ [some '\x00'])
      (R := st'.map some ++ some '\x00' :: (some '\x00' :: tail)) (i := 0 + name.length + 1)
      (b := [] ++ ([] ++ (name ++ '\x00' :: y :: st')).map some ++ some '\x00' :: (some '\x00' :: tail))
      (([] ++ ([] ++ (name ++ '\x00' :: y :: st')).map some ++ some '\x00' :: (some '\x00' :: tail) :
        LineBytes).length + 1)
      (by simp) (by simp) (by simp) ((isSpaceMc_false y).2 (hs.2 y (by simp)).1) (by simp)
    unfold stripSpace skipSpaces skipNonSpaces
    rw [e1, Res.bind_ok, scan_ub]
    · rfl
    · intro j c hj hjc
      have hm := List.mem_of_getElem? hjc
      simp only [List.nil_append, List.map_append, List.map_cons, List.append_assoc,
        List.cons_append, List.mem_append, List.mem_map, List.mem_cons, Option.some.injEq] at hm
      have : ¬ isWs c := by
        rcases hm with ⟨d, hd, rfl⟩ | rfl | rfl | ⟨d, hd, rfl⟩ | rfl | rfl | hm
        · exact (hn.2 _ hd).1
        · simp [isWs]
        · exact (hs.2 _ (by simp)).1
        · exact (hs.2 _ (by simp [hd])).1
        · simp [isWs]
        · simp [isWs]
        · exact ht c hm
      simp [(isSpaceMc_false c).2 this]
  rw [hub]
  rfl

/-- **C45 fails** also for `name= status`: the line is rejected as malformed. -/
theorem C45_false_space_only_after_equals (name gap rest : Str) (x : Char) (hn : IsWord name)
    (hc : name.head? ≠ some '#') (hx : isWs x) (tail : LineBytes) :
    modulesLine (lineBuf (name ++ '=' :: x :: (gap ++ rest)) tail)
      (name ++ '=' :: x :: (gap ++ rest)).length = .ok .error := by
  rw [modulesLine_word (ws := []) (w := name) (rest := '=' :: x :: (gap ++ rest)) (by simp)
    (by simp) hn hc (by simp; have := List.length_pos_iff.2 hn.1; omega)]
  have t1 := strtokEq_delim (b := lineBuf (name ++ '=' :: x :: (gap ++ rest)) tail) (i := 0)
    (P := []) (t := name) (R := (x :: (gap ++ rest)).map some ++ some '\x00' :: tail)
    (by simp [lineBuf]) rfl (fun c hc => (hn.2 c hc).2) hn.1
  have s1 := stripSpace_at (i := 0) (P := []) (ws := []) (w := name ++ ['\x00']) (x := x)
    (R := (gap ++ rest).map some ++ some '\x00' :: tail)
    (b := [] ++ name.map some ++ some '\x00' :: ((x :: (gap ++ rest)).map some ++ some '\x00' :: tail))
    (by simp) rfl (by simp) (by
      intro c hc
      simp only [List.mem_append, List.mem_cons, List.not_mem_nil, or_false] at hc
      rcases hc with hc | rfl
      · exact (hn.2 c hc).1
      · simp [isWs]) (by simp) hx
  have t2 := strtokEq_none (i := 0 + name.length + 1) (P := name.map some ++ [some '\x00'])
    (R := (gap ++ rest).map some ++ some '\x00' :: tail)
    (b := [] ++ ([] ++ (name ++ ['\x00'])).map some ++ some '\x00' ::
      ((gap ++ rest).map some ++ some '\x00' :: tail))
    (by simp) (by simp)
  unfold tokenizeLine
  simp only [t1, Res.bind_ok]
  rw [s1, Res.bind_ok]
  dsimp only
  rw [t2]
  rfl

/-! ## Concrete lines -/

/-- `kernel = base`, as in the refpolicy's modules.conf. -/
example : EntryLine cs!"kernel = base\n" cs!"kernel" cs!"base" where
  shape := ⟨[], cs!" ", cs!" ", cs!"\n", [], rfl, by simp, by simp [isWs], by simp [isWs],
    by simp [isWs], by simp, by simp, by simp [IsTrailer]⟩
  nameWord := by simp [IsWord, isWs]
  statusWord := by simp [IsWord, isWs]
  noComment := by simp

example : IgnoredLine cs!"  # Layer: kernel\n" :=
  ⟨cs!"  ", cs!"# Layer: kernel\n", rfl, by simp [isWs], .inr rfl⟩

/-- The first line of a file: the buffer has just been allocated. -/
example :
    loadModulesSource {} [(cs!"kernel=base\n", List.replicate 107 none)] = .ub ∧
    (match loadModulesSource {} [(cs!"kernel = base\n", List.replicate 105 none),
        (cs!"# x\n", []), (cs!"foo\t= off # later\n", [])] with
      | .ok (ok, m) => ok && decide (m.mods = [(cs!"kernel", cs!"base"), (cs!"foo", cs!"off")])
      | .ub => false) = true := by decide +kernel

end Selint
