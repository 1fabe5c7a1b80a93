import Verif.Model.ParseFc
import Verif.Spec.ParseFc
import Verif.Lemmas.CBuf
/-! # Lemmas about parsing file context lines: from buffers to text -/

namespace Selint

open Spec (token blank contextText uptoParen uptoParenFrom withRange genContextText)

/-! ## Buffers -/

theorem cstr_at {b : LineBytes} {i : Nat} {P R : LineBytes} {w : Str}
    (hb : b = P ++ w.map some ++ some '\x00' :: R) (hi : i = P.length)
    (hw : ∀ x ∈ w, x ≠ '\x00') : b.cstr i = .ok w :=
  str_at _ hb hi hw (by subst hb; simp; omega)

theorem strcpy_at {b : LineBytes} {i : Nat} {P Q R : LineBytes} {s : Str} (hb : b = P ++ Q ++ R)
    (hi : i = P.length) (hQ : Q.length = s.length + 1) :
    b.strcpy i s = .ok (P ++ s.map some ++ some '\x00' :: R) := by
  induction s generalizing b i P Q with
  | nil =>
    match Q, hQ with
    | [x], _ => rw [LineBytes.strcpy, LineBytes.wr_at (P := P) (x := x) (R := R) '\x00' (by simp [hb]) hi]; simp
  | cons c s ih =>
    match Q, hQ with
    | x :: Q, hQ =>
      rw [LineBytes.strcpy, LineBytes.wr_at (P := P) (x := x) (R := Q ++ R) c (by simp [hb]) hi,
        Res.bind_ok, ih (P := P ++ [some c]) (Q := Q) (by simp) (by simp [hi]) (by simpa using hQ)]
      simp

/-! ## Tokens -/

theorem dropWhile_append_all {p : Char → Bool} {a b : Str} (h : ∀ c ∈ a, p c = true) :
    (a ++ b).dropWhile p = b.dropWhile p := by
  induction a with
  | nil => rfl
  | cons x a ih => simp [h x (by simp), ih fun c hc => h c (by simp [hc])]

theorem takeWhile_append_all {p : Char → Bool} {a b : Str} (h : ∀ c ∈ a, p c = true) :
    (a ++ b).takeWhile p = a ++ b.takeWhile p := by
  induction a with
  | nil => rfl
  | cons x a ih => simp [h x (by simp), ih fun c hc => h c (by simp [hc])]

theorem takeWhile_all {p : Char → Bool} {a : Str} (h : ∀ c ∈ a, p c = true) :
    a.takeWhile p = a := by simpa using takeWhile_append_all (b := []) h

theorem dropWhile_all {p : Char → Bool} {a : Str} (h : ∀ c ∈ a, p c = true) :
    a.dropWhile p = [] := by simpa using dropWhile_append_all (b := []) h

theorem token_none {sep : Char → Bool} {ds : Str} (h : ∀ c ∈ ds, sep c = true) :
    token sep ds = none := by
  simp [token, dropWhile_all h]

theorem dropWhile_seps {sep : Char → Bool} {ds t r : Str} (h : ∀ c ∈ ds, sep c = true)
    (ht : ∀ c ∈ t, sep c = false) (hne : t ≠ []) : (ds ++ (t ++ r)).dropWhile sep = t ++ r := by
  rw [dropWhile_append_all h]
  match t, hne with
  | x :: t, _ => simp [ht x (by simp)]

theorem token_last {sep : Char → Bool} {ds t : Str} (h : ∀ c ∈ ds, sep c = true)
    (ht : ∀ c ∈ t, sep c = false) (hne : t ≠ []) : token sep (ds ++ t) = some (t, []) := by
  have := dropWhile_seps (r := []) h ht hne
  simp only [List.append_nil] at this
  simp only [token, this, hne, if_false]
  rw [takeWhile_all (fun c hc => by simp [ht c hc]), dropWhile_all (fun c hc => by simp [ht c hc])]
  rfl

theorem token_delim {sep : Char → Bool} {ds t r : Str} {x : Char} (h : ∀ c ∈ ds, sep c = true)
    (ht : ∀ c ∈ t, sep c = false) (hne : t ≠ []) (hx : sep x = true) :
    token sep (ds ++ (t ++ x :: r)) = some (t, r) := by
  have := dropWhile_seps (r := x :: r) h ht hne
  simp only [token, this]
  rw [if_neg (by simp), takeWhile_append_all (fun c hc => by simp [ht c hc]),
    dropWhile_append_all (fun c hc => by simp [ht c hc])]
  simp [hx]

theorem mem_takeWhile_imp {p : Char → Bool} {s : Str} {c : Char} (h : c ∈ s.takeWhile p) : p c = true := by
  induction s with
  | nil => simp at h
  | cons x s ih =>
    rw [List.takeWhile_cons] at h
    split at h
    · rcases List.mem_cons.1 h with rfl | h
      · assumption
      · exact ih h
    · simp at h

theorem dropWhile_head {p : Char → Bool} {s r : Str} {x : Char} (h : s.dropWhile p = x :: r) :
    p x = false := by
  induction s with
  | nil => simp at h
  | cons y s ih =>
    rw [List.dropWhile_cons] at h
    split at h
    · exact ih h
    · rename_i hy
      injection h with h1 h2
      subst h1; simpa using hy

/-- The three shapes of a string with respect to its first token. -/
theorem token_shape (sep : Char → Bool) (s : Str) :
    (∀ c ∈ s, sep c = true) ∨
    (∃ ds t, s = ds ++ t ∧ (∀ c ∈ ds, sep c = true) ∧ (∀ c ∈ t, sep c = false) ∧ t ≠ []) ∨
    (∃ ds t x r, s = ds ++ (t ++ x :: r) ∧ (∀ c ∈ ds, sep c = true) ∧ (∀ c ∈ t, sep c = false) ∧
      t ≠ [] ∧ sep x = true) := by
  have h1 : s = s.takeWhile sep ++ s.dropWhile sep := (List.takeWhile_append_dropWhile).symm
  by_cases h : s.dropWhile sep = []
  · left
    intro c hc
    rw [h1, h, List.append_nil] at hc
    exact mem_takeWhile_imp hc
  · right
    have h2 : s.dropWhile sep = (s.dropWhile sep).takeWhile (!sep ·) ++ (s.dropWhile sep).dropWhile (!sep ·) :=
      (List.takeWhile_append_dropWhile).symm
    have hne : (s.dropWhile sep).takeWhile (!sep ·) ≠ [] := by
      match hd : s.dropWhile sep, h with
      | x :: r, _ => simp [dropWhile_head hd]
    match h3 : (s.dropWhile sep).dropWhile (!sep ·) with
    | [] =>
      left
      refine ⟨s.takeWhile sep, (s.dropWhile sep).takeWhile (!sep ·), ?_, fun c => mem_takeWhile_imp, ?_, hne⟩
      · rw [h3, List.append_nil] at h2; rw [← h2]; exact h1
      · intro c hc; simpa using mem_takeWhile_imp hc
    | x :: r =>
      right
      refine ⟨s.takeWhile sep, (s.dropWhile sep).takeWhile (!sep ·), x, r, ?_, fun c => mem_takeWhile_imp, ?_, hne, ?_⟩
      · rw [h3] at h2; rw [← h2]; exact h1
      · intro c hc; simpa using mem_takeWhile_imp hc
      · simpa using dropWhile_head h3

/-- `strtok` on the string `s` in a buffer. -/
theorem strtokB_cases {delim : Char → Bool} {b : LineBytes} {i : Nat} {P R : LineBytes} {s : Str}
    (hd : delim '\x00' = false) (hb : b = P ++ s.map some ++ some '\x00' :: R) (hi : i = P.length)
    (hs : ∀ c ∈ s, c ≠ '\x00') :
    ((∀ c ∈ s, delim c = true) ∧ token delim s = none ∧
      strtokB delim b i = .ok (b, i + s.length, none)) ∨
    (∃ ds t, s = ds ++ t ∧ (∀ c ∈ ds, delim c = true) ∧ (∀ c ∈ t, delim c = false) ∧ t ≠ [] ∧
      token delim s = some (t, []) ∧
      strtokB delim b i = .ok (b, i + ds.length + t.length, some (i + ds.length))) ∨
    (∃ ds t x r, s = ds ++ (t ++ x :: r) ∧ (∀ c ∈ ds, delim c = true) ∧ (∀ c ∈ t, delim c = false) ∧
      t ≠ [] ∧ delim x = true ∧ token delim s = some (t, r) ∧
      strtokB delim b i = .ok (P ++ (ds ++ t).map some ++ some '\x00' :: (r.map some ++ some '\x00' :: R),
        i + ds.length + t.length + 1, some (i + ds.length))) := by
  rcases token_shape delim s with h | ⟨ds, t, rfl, h1, h2, h3⟩ | ⟨ds, t, x, r, rfl, h1, h2, h3, h4⟩
  · exact .inl ⟨h, token_none h, strtokB_none hd hb hi h⟩
  · exact .inr (.inl ⟨ds, t, rfl, h1, h2, h3, token_last h1 h2 h3,
      strtokB_last hb hi h1 (fun c hc => ⟨h2 c hc, hs c (by simp [hc])⟩) h3⟩)
  · exact .inr (.inr ⟨ds, t, x, r, rfl, h1, h2, h3, h4, token_delim h1 h2 h3 h4,
      strtokB_delim (by simp [hb]) hi h1 (fun c hc => ⟨h2 c hc, hs c (by simp [hc])⟩) h3 h4
        (hs x (by simp))⟩)

/-- `strtok` on the string `s` in a buffer: the token it returns, and the string that is left
at the saved position. Only bytes of `s` are written. -/
theorem strtokB_step {delim : Char → Bool} {b : LineBytes} {i : Nat} {P R : LineBytes} {s : Str}
    (hd : delim '\x00' = false) (hb : b = P ++ s.map some ++ some '\x00' :: R) (hi : i = P.length)
    (hs : ∀ c ∈ s, c ≠ '\x00') :
    (token delim s = none ∧ strtokB delim b i = .ok (b, i + s.length, none)) ∨
    (∃ (q : Nat) (t r : Str) (P' : LineBytes), token delim s = some (t, r) ∧
      strtokB delim b i = .ok (P' ++ r.map some ++ some '\x00' :: R, P'.length, some q) ∧
      P'.length + r.length = P.length + s.length ∧ (∀ c ∈ r, c ≠ '\x00') ∧
      (P' ++ r.map some ++ some '\x00' :: R).cstr q = .ok t) := by
  rcases strtokB_cases hd hb hi hs with ⟨_, h1, h2⟩ | ⟨ds, t, rfl, _, _, _, h4, h5⟩ |
    ⟨ds, t, x, r, rfl, _, _, _, _, h5, h6⟩
  · exact .inl ⟨h1, h2⟩
  · refine .inr ⟨i + ds.length, t, [], P ++ (ds ++ t).map some, h4, ?_, by simp, by simp,
      cstr_at (P := P ++ ds.map some) (R := R) (by simp) (by simp [hi]) fun c hc => hs c (by simp [hc])⟩
    rw [h5, hb, hi]; simp [Nat.add_assoc]
  · refine .inr ⟨i + ds.length, t, r, P ++ (ds ++ t).map some ++ [some '\x00'], h5, ?_, by simp; omega,
      fun c hc => hs c (by simp [hc]),
      cstr_at (P := P ++ ds.map some) (R := r.map some ++ some '\x00' :: R) (by simp) (by simp [hi])
        fun c hc => hs c (by simp [hc])⟩
    rw [h6, hi]; simp [Nat.add_assoc]

/-! ## Contexts -/

/-- `parse_context` reads the context text and leaves everything behind it alone. -/
theorem parseContext_at {b : LineBytes} {i : Nat} {P R : LineBytes} {s : Str}
    (hb : b = P ++ s.map some ++ some '\x00' :: R) (hi : i = P.length)
    (hs : ∀ c ∈ s, c ≠ '\x00') :
    ∃ S, parseContext b i = .ok (S ++ some '\x00' :: R, contextText s) ∧
      S.length = P.length + s.length := by
  unfold parseContext contextText
  rw [cstr_at hb hi hs, Res.bind_ok]
  split
  · exact ⟨P ++ s.map some, by rw [hb]; rfl, by simp⟩
  unfold contextParts
  rcases strtokB_step (delim := fun c => c = ':') (by decide) hb hi hs with ⟨h1, h2⟩ |
    ⟨q, u, s1, P1, h1, h2, h3, h4, h5⟩
  · rw [h1, h2]
    exact ⟨P ++ s.map some, by rw [hb]; rfl, by simp⟩
  rw [h1, h2]
  simp only [Res.bind_ok, h5]
  rcases strtokB_step (delim := fun c => c = ':') (by decide) rfl rfl h4 with ⟨k1, k2⟩ |
    ⟨q2, r, s2, P2, k1, k2, k3, k4, k5⟩
  · rw [k1, k2]
    exact ⟨P1 ++ s1.map some, rfl, by simp; omega⟩
  rw [k1, k2]
  simp only [Res.bind_ok, k5]
  rcases strtokB_step (delim := fun c => c = ':') (by decide) rfl rfl k4 with ⟨m1, m2⟩ |
    ⟨q3, t, s3, P3, m1, m2, m3, m4, m5⟩
  · rw [m1, m2]
    exact ⟨P2 ++ s2.map some, rfl, by simp; omega⟩
  rw [m1, m2]
  simp only [Res.bind_ok, m5]
  rcases strtokB_step (delim := fun c => c = ':') (by decide) rfl rfl m4 with ⟨n1, n2⟩ |
    ⟨q4, g, s4, P4, n1, n2, n3, n4, n5⟩
  · rw [n1, n2]
    exact ⟨P3 ++ s3.map some, rfl, by simp; omega⟩
  rw [n1, n2]
  simp only [Res.bind_ok, n5]
  rcases strtokB_step (delim := fun c => c = ':') (by decide) rfl rfl n4 with ⟨o1, o2⟩ |
    ⟨q5, x, s5, P5, o1, o2, o3, o4, o5⟩
  · rw [o1, o2]
    exact ⟨P4 ++ s4.map some, rfl, by simp; omega⟩
  rw [o1, o2]
  exact ⟨P5 ++ s5.map some, rfl, by simp; omega⟩

/-! ## gen_context -/

theorem scanParen_at {b : LineBytes} {p i : Nat} {P R : LineBytes} {w : Str} {x : Char}
    (hb : b = P ++ w.map some ++ some x :: R) (hi : p + i = P.length)
    (hw : ∀ c ∈ w, c ≠ '\x00' ∧ c ≠ ')') (hx : x = '\x00' ∨ x = ')') :
    scanParen b p i = .ok (i + w.length) := by
  unfold scanParen
  rw [scan_at (P := P) (w := w) (c := x) (R := R) _ hb hi (fun c hc => by simp [hw c hc])
    (by rcases hx with rfl | rfl <;> decide) (by subst hb; simp; omega)]
  simp; omega

/-- Trimming the string `w` in a buffer. -/
theorem trimStart_at {b : LineBytes} {p : Nat} {P R : LineBytes} {w : Str}
    (hb : b = P ++ w.map some ++ some '\x00' :: R) (hp : p = P.length)
    (hw : ∀ c ∈ w, c ≠ '\x00') :
    trimStart b p = .ok (p + (w.takeWhile blank).length) := by
  unfold trimStart
  have h1 : w = w.takeWhile blank ++ w.dropWhile blank := (List.takeWhile_append_dropWhile).symm
  have h2 : ∀ c ∈ w.takeWhile blank, ((fun c => c ≠ '\x00' && fcWs c) c : Bool) = true := by
    intro c hc
    have := mem_takeWhile_imp hc
    have h3 := hw c (List.takeWhile_subset _ hc)
    simpa [h3, fcWs, blank] using this
  match hd : w.dropWhile blank with
  | [] =>
    rw [hd, List.append_nil] at h1
    rw [scan_at (P := P) (w := w) (c := '\x00') (R := R) _ hb hp (by rw [h1]; exact h2) (by simp)
      (by subst hb; simp; omega), hp, ← h1]
  | x :: r =>
    rw [hd] at h1
    rw [scan_at (P := P) (w := w.takeWhile blank) (c := x) (R := r.map some ++ some '\x00' :: R) _
      (by rw [hb]; conv => lhs; rw [h1]
          simp) hp h2
      (by have := dropWhile_head hd; simpa [fcWs, blank] using fun _ => this)
      (by have := congrArg List.length h1; simp at this; rw [hb]; simp; omega), hp]

theorem cstr_trimmed {b : LineBytes} {p : Nat} {P R : LineBytes} {w : Str}
    (hb : b = P ++ w.map some ++ some '\x00' :: R) (hp : p = P.length)
    (hw : ∀ c ∈ w, c ≠ '\x00') :
    b.cstr (p + (w.takeWhile blank).length) = .ok (w.dropWhile blank) := by
  have h1 : w = w.takeWhile blank ++ w.dropWhile blank := (List.takeWhile_append_dropWhile).symm
  refine cstr_at (P := P ++ (w.takeWhile blank).map some) (R := R) ?_ (by simp [hp])
    (fun c hc => hw c (List.dropWhile_subset _ hc))
  rw [hb]; conv => lhs; rw [h1]
  simp only [List.map_append, List.append_assoc]

theorem finishGen_gen {b : LineBytes} {i : Nat} {P R : LineBytes} {cp : Str}
    (hb : b = P ++ cp.map some ++ some '\x00' :: R) (hi : i = P.length)
    (hs : ∀ c ∈ cp, c ≠ '\x00') :
    finishGen b i none none = .ok ((contextText cp).map (withRange · none)) := by
  obtain ⟨S, h1, h2⟩ := parseContext_at hb hi hs
  unfold finishGen
  rw [h1]
  cases contextText cp <;> rfl

theorem finishGen_level {b : LineBytes} {i p : Nat} {P Q R : LineBytes} {cp lev : Str}
    (hb : b = P ++ cp.map some ++ some '\x00' :: (Q ++ lev.map some ++ some '\x00' :: R))
    (hi : i = P.length) (hp : p = P.length + cp.length + 1 + Q.length + (lev.takeWhile blank).length)
    (hs : ∀ c ∈ cp, c ≠ '\x00') (hl : ∀ c ∈ lev, c ≠ '\x00') :
    finishGen b i (some p) none =
      .ok ((contextText cp).map (withRange · (some (lev.dropWhile blank)))) := by
  obtain ⟨S, h1, h2⟩ := parseContext_at hb hi hs
  unfold finishGen
  rw [h1, hp]
  cases contextText cp with
  | none => rfl
  | some c =>
    simp only [Res.bind_ok]
    rw [cstr_trimmed (P := S ++ some '\x00' :: Q) (R := R) (w := lev) (by simp) (by simp; omega) hl]
    rfl

theorem finishGen_category {b : LineBytes} {i p q : Nat} {P Q Q' R : LineBytes} {cp lev cat : Str}
    (hb : b = P ++ cp.map some ++ some '\x00' :: (Q ++ lev.map some ++ some '\x00' ::
      (Q' ++ cat.map some ++ some '\x00' :: R)))
    (hi : i = P.length) (hp : p = P.length + cp.length + 1 + Q.length + (lev.takeWhile blank).length)
    (hq : q = P.length + cp.length + 1 + Q.length + lev.length + 1 + Q'.length +
      (cat.takeWhile blank).length)
    (hs : ∀ c ∈ cp, c ≠ '\x00') (hl : ∀ c ∈ lev, c ≠ '\x00') (hc : ∀ c ∈ cat, c ≠ '\x00') :
    finishGen b i (some p) (some q) =
      .ok ((contextText cp).map
        (withRange · (some (lev.dropWhile blank ++ ':' :: cat.dropWhile blank)))) := by
  obtain ⟨S, h1, h2⟩ := parseContext_at hb hi hs
  unfold finishGen
  rw [h1, hp, hq]
  cases contextText cp with
  | none => rfl
  | some c =>
    simp only [Res.bind_ok]
    rw [cstr_trimmed (P := S ++ some '\x00' :: Q) (R := Q' ++ cat.map some ++ some '\x00' :: R)
      (w := lev) (by simp) (by simp; omega) hl, Res.bind_ok,
      cstr_trimmed (P := S ++ some '\x00' :: (Q ++ lev.map some ++ some '\x00' :: Q')) (R := R)
      (w := cat) (by simp) (by simp; omega) hc]
    simp [withRange]

/-- Where a string ends as far as the parenthesis scan is concerned. -/
theorem paren_shape (s : Str) :
    (')' ∉ s ∧ uptoParen s = none ∧ s.takeWhile (· ≠ ')') = s) ∨
    (∃ w v, s = w ++ ')' :: v ∧ ')' ∉ w ∧ uptoParen s = some w ∧ s.takeWhile (· ≠ ')') = w) := by
  by_cases h : ')' ∈ s
  · right
    obtain ⟨w, v, rfl, hw⟩ := List.eq_append_cons_of_mem h
    have h3 : (w ++ ')' :: v).takeWhile (· ≠ ')') = w := by
      rw [takeWhile_append_all (fun c hc => by simpa using fun (e : c = ')') => hw (e ▸ hc))]
      simp
    exact ⟨w, v, rfl, hw, by rw [uptoParen, if_pos h, h3], h3⟩
  · exact .inl ⟨h, by simp [uptoParen, h],
      takeWhile_all fun c hc => by simpa using fun (e : c = ')') => h (e ▸ hc)⟩

theorem genWithoutLevel_at {b : LineBytes} {i : Nat} {P R : LineBytes} {cp : Str}
    (hb : b = P ++ cp.map some ++ some '\x00' :: R) (hi : i = P.length)
    (hs : ∀ c ∈ cp, c ≠ '\x00') :
    genWithoutLevel b i = .ok (match uptoParen cp with
      | none => none
      | some ctx => (contextText ctx).map (withRange · none)) := by
  unfold genWithoutLevel
  rcases paren_shape cp with ⟨h1, h2, _⟩ | ⟨w, v, rfl, h1, h2, _⟩
  · rw [scanParen_at (P := P) (w := cp) (x := '\x00') (R := R) hb (by simpa using hi)
      (fun c hc => ⟨hs c hc, fun e => h1 (e ▸ hc)⟩) (.inl rfl), Res.bind_ok,
      LineBytes.rd_at (P := P ++ cp.map some) (c := '\x00') (R := R) hb (by simp [hi]), h2]
    rfl
  · rw [scanParen_at (P := P) (w := w) (x := ')') (R := v.map some ++ some '\x00' :: R)
      (by simp [hb]) (by simpa using hi)
      (fun c hc => ⟨hs c (by simp [hc]), fun e => h1 (e ▸ hc)⟩) (.inr rfl), Res.bind_ok,
      LineBytes.rd_at (P := P ++ w.map some) (c := ')') (R := v.map some ++ some '\x00' :: R)
        (by simp [hb]) (by simp [hi]), Res.bind_ok, if_neg (by decide),
      LineBytes.wr_at (P := P ++ w.map some) (x := some ')') (R := v.map some ++ some '\x00' :: R)
        '\x00' (by simp [hb]) (by simp [hi]), Res.bind_ok,
      finishGen_gen (P := P) (cp := w) rfl hi fun c hc => hs c (by simp [hc]), h2]

theorem genWithLevel_none {b : LineBytes} {i p : Nat} {P Q R : LineBytes} {cp lev : Str}
    (hb : b = P ++ cp.map some ++ some '\x00' :: (Q ++ lev.map some ++ some '\x00' :: R))
    (hi : i = P.length) (hp : p = P.length + cp.length + 1 + Q.length)
    (hs : ∀ c ∈ cp, c ≠ '\x00') (hl : ∀ c ∈ lev, c ≠ '\x00') :
    genWithLevel b i p none = .ok (match uptoParen lev with
      | none => none
      | some level => (contextText cp).map (withRange · (some (level.dropWhile blank)))) := by
  unfold genWithLevel
  rcases paren_shape lev with ⟨h1, h2, _⟩ | ⟨w, v, rfl, h1, h2, _⟩
  · rw [scanParen_at (P := P ++ cp.map some ++ some '\x00' :: Q) (w := lev) (x := '\x00') (R := R)
      (by simp [hb]) (by simp; omega) (fun c hc => ⟨hl c hc, fun e => h1 (e ▸ hc)⟩) (.inl rfl), Res.bind_ok,
      LineBytes.rd_at (P := P ++ cp.map some ++ some '\x00' :: Q ++ lev.map some) (c := '\x00') (R := R)
        (by simp [hb]) (by simp; omega), h2]
    rfl
  · rw [scanParen_at (P := P ++ cp.map some ++ some '\x00' :: Q) (w := w) (x := ')')
      (R := v.map some ++ some '\x00' :: R)
      (by simp [hb]) (by simp; omega)
      (fun c hc => ⟨hl c (by simp [hc]), fun e => h1 (e ▸ hc)⟩) (.inr rfl), Res.bind_ok,
      LineBytes.rd_at (P := P ++ cp.map some ++ some '\x00' :: Q ++ w.map some) (c := ')')
        (R := v.map some ++ some '\x00' :: R)
        (by simp [hb]) (by simp; omega), Res.bind_ok, if_neg (by simp),
      LineBytes.wr_at (P := P ++ cp.map some ++ some '\x00' :: Q ++ w.map some) (x := some ')')
        (R := v.map some ++ some '\x00' :: R)
        '\x00' (by simp [hb]) (by simp; omega), Res.bind_ok,
      trimStart_at (P := P ++ cp.map some ++ some '\x00' :: Q) (w := w)
        (R := v.map some ++ some '\x00' :: R) rfl (by simp; omega)
        (fun c hc => hl c (by simp [hc])), Res.bind_ok]
    simp only []
    rw [finishGen_level (P := P) (cp := cp) (Q := Q) (lev := w)
      (R := v.map some ++ some '\x00' :: R) (by simp) hi (by omega) hs fun c hc => hl c (by simp [hc]), h2]

/-- The category: the scan starts at the index where the one of the level ended. -/
theorem finishCategory_at {b : LineBytes} {i p q k : Nat} {P Q Q' R : LineBytes} {cp lev cat : Str}
    (hb : b = P ++ cp.map some ++ some '\x00' :: (Q ++ lev.map some ++ some '\x00' ::
      (Q' ++ cat.map some ++ some '\x00' :: R)))
    (hi : i = P.length) (hp : p = P.length + cp.length + 1 + Q.length + (lev.takeWhile blank).length)
    (hq : q = P.length + cp.length + 1 + Q.length + lev.length + 1 + Q'.length)
    (hs : ∀ c ∈ cp, c ≠ '\x00') (hl : ∀ c ∈ lev, c ≠ '\x00') (hc : ∀ c ∈ cat, c ≠ '\x00')
    (hk : k ≤ cat.length) :
    finishCategory b i p q k = .ok (match uptoParenFrom k cat with
      | none => none
      | some category => (contextText cp).map
          (withRange · (some (lev.dropWhile blank ++ ':' :: category.dropWhile blank)))) := by
  obtain ⟨a, d, rfl, rfl⟩ : ∃ a d, cat = a ++ d ∧ a.length = k :=
    ⟨cat.take k, cat.drop k, (List.take_append_drop k cat).symm, by simp; omega⟩
  unfold finishCategory uptoParenFrom
  rw [List.drop_left, List.take_left]
  generalize hP' : P ++ cp.map some ++ some '\x00' :: (Q ++ lev.map some ++ some '\x00' :: Q') = P'
  have hP'l : P'.length = q := by rw [← hP']; simp; omega
  have hb' : b = P' ++ (a ++ d).map some ++ some '\x00' :: R := by rw [hb, ← hP']; simp
  rcases paren_shape d with ⟨h1, h2, _⟩ | ⟨w, v, rfl, h1, h2, _⟩
  · rw [scanParen_at (P := P' ++ a.map some) (w := d) (x := '\x00') (R := R)
      (by simp [hb']) (by simp; omega)
      (fun c h => ⟨hc c (by simp [h]), fun e => h1 (e ▸ h)⟩) (.inl rfl), Res.bind_ok,
      LineBytes.rd_at (P := P' ++ (a ++ d).map some) (c := '\x00') (R := R)
        (by simp [hb']) (by simp; omega), h2]
    rfl
  · rw [scanParen_at (P := P' ++ a.map some) (w := w) (x := ')') (R := v.map some ++ some '\x00' :: R)
      (by simp [hb']) (by simp; omega)
      (fun c h => ⟨hc c (by simp [h]), fun e => h1 (e ▸ h)⟩) (.inr rfl), Res.bind_ok,
      LineBytes.rd_at (P := P' ++ (a ++ w).map some) (c := ')') (R := v.map some ++ some '\x00' :: R)
        (by simp [hb']) (by simp; omega), Res.bind_ok, if_neg (by simp),
      LineBytes.wr_at (P := P' ++ (a ++ w).map some) (x := some ')') (R := v.map some ++ some '\x00' :: R)
        '\x00' (by simp [hb']) (by simp; omega), Res.bind_ok,
      trimStart_at (P := P') (w := a ++ w) (R := v.map some ++ some '\x00' :: R) rfl
        (by omega) (fun c h => hc c (by simp at h ⊢; grind)), Res.bind_ok,
      finishGen_category (P := P) (cp := cp) (Q := Q) (lev := lev) (Q' := Q') (cat := a ++ w)
        (R := v.map some ++ some '\x00' :: R) (by rw [← hP']; simp) hi hp (by omega) hs hl
        (fun c h => hc c (by simp at h ⊢; grind)), h2]
    rfl

theorem genWithLevel_some {b : LineBytes} {i p q : Nat} {P Q Q' R : LineBytes} {cp lev cat : Str}
    (hb : b = P ++ cp.map some ++ some '\x00' :: (Q ++ lev.map some ++ some '\x00' ::
      (Q' ++ cat.map some ++ some '\x00' :: R)))
    (hi : i = P.length) (hp : p = P.length + cp.length + 1 + Q.length)
    (hq : q = P.length + cp.length + 1 + Q.length + lev.length + 1 + Q'.length)
    (hs : ∀ c ∈ cp, c ≠ '\x00') (hl : ∀ c ∈ lev, c ≠ '\x00') (hc : ∀ c ∈ cat, c ≠ '\x00')
    (hk : (lev.takeWhile (· ≠ ')')).length ≤ cat.length) :
    genWithLevel b i p (some q) = .ok (
      match uptoParenFrom (lev.takeWhile (· ≠ ')')).length cat with
      | none => none
      | some category => (contextText cp).map
          (withRange · (some ((lev.takeWhile (· ≠ ')')).dropWhile blank ++
            ':' :: category.dropWhile blank)))) := by
  unfold genWithLevel
  rcases paren_shape lev with ⟨h1, _, h2⟩ | ⟨w, v, rfl, h1, _, h2⟩
  · rw [scanParen_at (P := P ++ cp.map some ++ some '\x00' :: Q) (w := lev) (x := '\x00')
      (R := Q' ++ cat.map some ++ some '\x00' :: R)
      (by simp [hb]) (by simp; omega) (fun c hc => ⟨hl c hc, fun e => h1 (e ▸ hc)⟩) (.inl rfl), Res.bind_ok,
      LineBytes.rd_at (P := P ++ cp.map some ++ some '\x00' :: Q ++ lev.map some) (c := '\x00')
        (R := Q' ++ cat.map some ++ some '\x00' :: R)
        (by simp [hb]) (by simp; omega), Res.bind_ok, if_neg (by simp),
      LineBytes.wr_at (P := P ++ cp.map some ++ some '\x00' :: Q ++ lev.map some) (x := some '\x00')
        (R := Q' ++ cat.map some ++ some '\x00' :: R)
        '\x00' (by simp [hb]) (by simp; omega), Res.bind_ok,
      trimStart_at (P := P ++ cp.map some ++ some '\x00' :: Q) (w := lev)
        (R := Q' ++ cat.map some ++ some '\x00' :: R) rfl (by simp; omega) hl, Res.bind_ok]
    simp only []
    rw [h2] at hk ⊢
    rw [finishCategory_at (P := P) (cp := cp) (Q := Q) (lev := lev) (Q' := Q') (cat := cat) (R := R)
      (by simp) hi (by omega) hq hs hl hc (by simpa using hk)]
    simp
  · rw [scanParen_at (P := P ++ cp.map some ++ some '\x00' :: Q) (w := w) (x := ')')
      (R := v.map some ++ some '\x00' :: (Q' ++ cat.map some ++ some '\x00' :: R))
      (by simp [hb]) (by simp; omega)
      (fun c hc => ⟨hl c (by simp [hc]), fun e => h1 (e ▸ hc)⟩) (.inr rfl), Res.bind_ok,
      LineBytes.rd_at (P := P ++ cp.map some ++ some '\x00' :: Q ++ w.map some) (c := ')')
        (R := v.map some ++ some '\x00' :: (Q' ++ cat.map some ++ some '\x00' :: R))
        (by simp [hb]) (by simp; omega), Res.bind_ok, if_neg (by simp),
      LineBytes.wr_at (P := P ++ cp.map some ++ some '\x00' :: Q ++ w.map some) (x := some ')')
        (R := v.map some ++ some '\x00' :: (Q' ++ cat.map some ++ some '\x00' :: R))
        '\x00' (by simp [hb]) (by simp; omega), Res.bind_ok,
      trimStart_at (P := P ++ cp.map some ++ some '\x00' :: Q) (w := w)
        (R := v.map some ++ some '\x00' :: (Q' ++ cat.map some ++ some '\x00' :: R)) rfl (by simp; omega)
        (fun c hc => hl c (by simp [hc])), Res.bind_ok]
    simp only []
    rw [h2] at hk ⊢
    rw [finishCategory_at (P := P) (cp := cp) (Q := Q) (lev := w)
      (Q' := v.map some ++ some '\x00' :: Q') (cat := cat) (R := R)
      (by simp) hi (by omega) (by simp at hq ⊢; omega) hs (fun c hc => hl c (by simp [hc])) hc
      (by simpa using hk)]
    simp

/-- `gen_context(` on text: nothing outside of the text is touched as long as the category
reaches as far as the level. -/
theorem genContext_at {b : LineBytes} {i : Nat} {P R : LineBytes} {s : Str}
    (hb : b = P ++ s.map some ++ some '\x00' :: R) (hi : i = P.length)
    (hs : ∀ c ∈ s, c ≠ '\x00') (hr : Spec.CategoryReaches s) :
    genContext b i = .ok (genContextText s) := by
  unfold genContext genContextText
  rcases strtokB_cases (delim := fun c => c = ',') (by decide) hb hi hs with ⟨_, h1, h2⟩ |
    ⟨ds, t, rfl, _, _, _, h1, h2⟩ | ⟨ds, t, x, r, rfl, _, _, _, _, h1, h2⟩
  · rw [h1, h2]; rfl
  · rw [h1, h2, Res.bind_ok]
    simp only []
    rw [strtokB_none (P := P ++ (ds ++ t).map some) (ds := []) (R := R) (by decide) (by simp [hb])
      (by simp; omega) (by simp), Res.bind_ok]
    simp only []
    rw [genWithoutLevel_at (P := P ++ ds.map some) (cp := t) (R := R) (by simp [hb]) (by simp [hi])
      (fun c hc => hs c (by simp [hc]))]
    simp only [token, List.dropWhile_nil, if_true]
    cases uptoParen t <;> rfl
  · rw [h1, h2, Res.bind_ok]
    simp only []
    have hr' := fun level s2 category s3 => hr t r level s2 category s3 h1
    rcases strtokB_cases (delim := fun c => c = ',')
      (P := P ++ (ds ++ t).map some ++ [some '\x00']) (s := r) (R := R) (i := i + ds.length + t.length + 1)
      (by decide) (by simp; rfl) (by simp; omega) (fun c hc => hs c (by simp [hc])) with ⟨_, k1, k2⟩ |
      ⟨ds2, t2, rfl, _, _, _, k1, k2⟩ | ⟨ds2, t2, x2, r2, rfl, _, _, _, _, k1, k2⟩
    · simp only [List.append_assoc, List.cons_append, List.nil_append, List.map_append] at k2 ⊢
      rw [k1, k2, Res.bind_ok]
      simp only []
      rw [genWithoutLevel_at (P := P ++ ds.map some) (cp := t) (R := r.map some ++ some '\x00' :: R)
        (by simp) (by simp [hi]) (fun c hc => hs c (by simp [hc]))]
      cases uptoParen t <;> rfl
    · simp only [List.append_assoc, List.cons_append, List.nil_append, List.map_append] at k2 ⊢
      rw [k1, k2, Res.bind_ok]
      simp only []
      rw [strtokB_none (P := P ++ (ds ++ t).map some ++ some '\x00' :: (ds2 ++ t2).map some) (ds := [])
        (R := R) (by decide) (by simp) (by simp; omega) (by simp), Res.bind_ok]
      simp only []
      rw [genWithLevel_none (P := P ++ ds.map some) (cp := t) (Q := ds2.map some) (lev := t2) (R := R)
        (by simp) (by simp [hi]) (by simp; omega) (fun c hc => hs c (by simp [hc]))
        (fun c hc => hs c (by simp [hc]))]
      simp only [token, List.dropWhile_nil, if_true]
      cases uptoParen t2 <;> rfl
    · have hr'' := fun category s3 => hr' t2 r2 category s3 k1
      simp only [List.append_assoc, List.cons_append, List.nil_append, List.map_append] at k2 ⊢
      rw [k1, k2, Res.bind_ok]
      simp only []
      rcases strtokB_cases (delim := fun c => c = ',')
        (P := P ++ (ds ++ t).map some ++ [some '\x00'] ++ (ds2 ++ t2).map some ++ [some '\x00']) (s := r2)
        (R := R) (i := i + ds.length + t.length + 1 + ds2.length + t2.length + 1)
        (by decide) (by simp; rfl) (by simp; omega) (fun c hc => hs c (by simp [hc])) with ⟨_, m1, m2⟩ |
        ⟨ds3, t3, rfl, _, _, _, m1, m2⟩ | ⟨ds3, t3, x3, r3, rfl, _, _, _, _, m1, m2⟩
      · rw [m1, m2, Res.bind_ok]
        simp only []
        rw [genWithLevel_none (P := P ++ ds.map some) (cp := t) (Q := ds2.map some) (lev := t2)
          (R := r2.map some ++ some '\x00' :: R)
          (by simp) (by simp [hi]) (by simp; omega) (fun c hc => hs c (by simp [hc]))
          (fun c hc => hs c (by simp [hc]))]
        cases uptoParen t2 <;> rfl
      · simp only [List.append_assoc, List.map_append] at m2 ⊢
        rw [m1, m2, Res.bind_ok]
        simp only []
        rw [genWithLevel_some (P := P ++ ds.map some) (cp := t) (Q := ds2.map some) (lev := t2)
          (Q' := ds3.map some) (cat := t3) (R := R)
          (by simp) (by simp [hi]) (by simp; omega) (by simp; omega) (fun c hc => hs c (by simp [hc]))
          (fun c hc => hs c (by simp [hc])) (fun c hc => hs c (by simp [hc])) (hr'' t3 [] m1)]
        cases uptoParenFrom (t2.takeWhile (· ≠ ')')).length t3 <;> rfl
      · simp only [List.append_assoc, List.map_append] at m2 ⊢
        rw [m1, m2, Res.bind_ok]
        simp only []
        rw [genWithLevel_some (P := P ++ ds.map some) (cp := t) (Q := ds2.map some) (lev := t2)
          (Q' := ds3.map some) (cat := t3) (R := r3.map some ++ some '\x00' :: R)
          (by simp) (by simp [hi]) (by simp; omega) (by simp; omega) (fun c hc => hs c (by simp [hc]))
          (fun c hc => hs c (by simp [hc])) (fun c hc => hs c (by simp [hc])) (hr'' t3 r3 m1)]
        cases uptoParenFrom (t2.takeWhile (· ≠ ')')).length t3 <;> rfl

/-! ## Lines -/

theorem fcWs_eq : fcWs = blank := rfl

/-- The entry of a label text. -/
def labelEntry (path : Str) (cls : Option Char) (s : Str) : Option FcEntry :=
  if cs!"gen_context(" <+: s then
    (genContextText (s.drop 12)).map fun c => ⟨path, cls, some c⟩
  else if s = cs!"<<none>>\n" ∨ s = cs!"<<none>>\r\n" then some ⟨path, cls, none⟩
  else (contextText s).map fun c => ⟨path, cls, some c⟩

/-- The result for a line whose context is parsed to `r`. -/
def labelRes (path : Str) (cls : Option Char) (r : Res FcLabel) : Res (Option FcEntry) := do
  match ← r with
  | .bad => pure none
  | .none => pure (some ⟨path, cls, none⟩)
  | .context c => pure (some ⟨path, cls, some c⟩)

/-- The result for a line, in terms of its parts: the context is parsed in the restored
buffer. -/
def lineRes (line : Str) (tail : LineBytes) : Res (Option FcEntry) :=
  match Spec.splitLine line with
  | none => .ok none
  | some (path, cls, s) => labelRes path cls (fcLabel (lineBuf line tail) (line.length - s.length))

theorem lineRes_split {line path s : Str} {cls : Option Char} {tail : LineBytes}
    (h : Spec.splitLine line = some (path, cls, s)) :
    lineRes line tail = labelRes path cls (fcLabel (lineBuf line tail) (line.length - s.length)) := by
  simp only [lineRes, h]

theorem lineRes_none {line : Str} {tail : LineBytes} (h : Spec.splitLine line = none) :
    lineRes line tail = .ok none := by
  simp only [lineRes, h]

theorem fcLabel_at {line path a s : Str} {cls : Option Char} {i : Nat} {tail : LineBytes}
    (ho : line = a ++ s) (hi : i = a.length) (hs : ∀ c ∈ line, c ≠ '\x00')
    (hr : cs!"gen_context(" <+: s → Spec.CategoryReaches (s.drop 12)) :
    labelRes path cls (fcLabel (lineBuf line tail) i) = .ok (labelEntry path cls s) := by
  unfold labelRes labelEntry fcLabel
  have hs' : ∀ c ∈ s, c ≠ '\x00' := fun c hc => hs c (by simp [ho, hc])
  rw [cstr_at (P := a.map some) (w := s) (R := tail) (by simp [lineBuf, ho]) (by simp [hi]) hs']
  simp only [Res.bind_ok]
  by_cases h : cs!"gen_context(" <+: s
  · obtain ⟨r, rfl⟩ := h
    have hr' := hr ⟨r, rfl⟩
    have e : (cs!"gen_context(" ++ r).drop 12 = r := rfl
    rw [e] at hr' ⊢
    rw [if_pos ⟨r, rfl⟩, if_pos ⟨r, rfl⟩, genContext_at (P := (a ++ cs!"gen_context(").map some) (s := r) (R := tail)
      (by simp [lineBuf, ho]) (by simp [hi]) (fun c hc => hs' c (List.mem_append_right _ hc)) hr']
    cases genContextText r <;> rfl
  · rw [if_neg h, if_neg h]
    split
    · rfl
    · obtain ⟨S, h1, h2⟩ := parseContext_at (b := lineBuf line tail) (i := i)
        (P := a.map some) (s := s) (R := tail) (by simp [lineBuf, ho]) (by simp [hi]) hs'
      rw [h1]
      cases contextText s <;> rfl

theorem fcFinish_at {b : LineBytes} {orig path a s : Str} {cls : Option Char} {i : Nat}
    {Q R : LineBytes} (hb : b = Q ++ R) (hQ : Q.length = orig.length + 1) (ho : orig = a ++ s)
    (hi : i = a.length) :
    fcFinish b orig path cls i = labelRes path cls (fcLabel (lineBuf orig R) (orig.length - s.length)) := by
  unfold fcFinish
  rw [strcpy_at (i := 0) (P := []) (Q := Q) (R := R) (by simpa using hb) rfl hQ, Res.bind_ok]
  have : orig.length - s.length = i := by rw [ho, hi]; simp
  rw [this]; rfl

/-- A line up to its second token. -/
structure SecondAt (line ds t : Str) (x : Char) (ds2 s : Str) : Prop where
  eq : line = ds ++ (t ++ x :: (ds2 ++ s))
  lead : ∀ c ∈ ds, blank c = true
  path : ∀ c ∈ t, blank c = false
  path_ne : t ≠ []
  sep : blank x = true
  gap : ∀ c ∈ ds2, blank c = true
  head : ∀ c, s.head? = some c → blank c = false
  ne : s ≠ []

theorem SecondAt.drop {line ds t ds2 s : Str} {x : Char} (h : SecondAt line ds t x ds2 s) :
    (ds2 ++ s).dropWhile blank = s := by
  rw [dropWhile_append_all h.gap]
  match s, h.ne, h.head with
  | c :: s, _, h6 => simp [h6 c rfl]

theorem SecondAt.token {line ds t ds2 s : Str} {x : Char} (h : SecondAt line ds t x ds2 s) :
    token blank line = some (t, ds2 ++ s) := by
  rw [h.eq, token_delim h.lead h.path h.path_ne h.sep]

theorem splitLine_plain {line ds t ds2 s : Str} {x : Char} (h : SecondAt line ds t x ds2 s)
    (hc : s.head? ≠ some '-') : Spec.splitLine line = some (t, none, s) := by
  simp only [Spec.splitLine, h.token, h.drop, h.ne, hc, if_false]

theorem splitLine_class {line ds t ds2 s : Str} {x o : Char} (h : SecondAt line ds t x ds2 ('-' :: o :: s))
    (ho : blank o = false) (hs : ∀ c, s.head? = some c → blank c = true) :
    Spec.splitLine line =
      if s.dropWhile blank = [] then none else some (t, some o, s.dropWhile blank) := by
  have e1 : ('-' :: o :: s).takeWhile (!blank ·) = ['-', o] := by
    have : blank '-' = false := rfl
    cases s with
    | nil => simp [this, ho]
    | cons c s => simp [this, ho, hs c rfl]
  have e2 : ('-' :: o :: s).dropWhile (!blank ·) = s := by
    have : blank '-' = false := rfl
    cases s with
    | nil => simp [this, ho]
    | cons c s => simp [this, ho, hs c rfl]
  simp only [Spec.splitLine, h.token, h.drop, e1, e2, List.head?_cons, if_true]
  simp

theorem splitLine_bad {line ds t ds2 s : Str} {x : Char} (h : SecondAt line ds t x ds2 s)
    (hc : s.head? = some '-') (hl : (s.takeWhile (!blank ·)).length ≠ 2) : Spec.splitLine line = none := by
  simp only [Spec.splitLine, h.token, h.drop, h.ne, hc, if_false, if_true]
  split
  · rename_i e
    rw [e] at hl; simp at hl
  · rfl

/-- A line with a hyphen token, object class `o`. -/
theorem fcSecond_class {b : LineBytes} {line path a s : Str} {o : Char} {tail : LineBytes} {p i : Nat}
    {Q : LineBytes} (hb : b = Q ++ some '-' :: some o :: some '\x00' :: (s.map some ++ some '\x00' :: tail))
    (hp : p = Q.length) (hi : i = p + 3) (hl : line = a ++ s) (ha : a.length = p + 3)
    (ho : o ≠ '\x00') (hs : ∀ c ∈ line, c ≠ '\x00') :
    fcSecond b line path p i = if s.dropWhile blank = [] then .ok none
      else labelRes path (some o)
        (fcLabel (lineBuf line tail) (line.length - (s.dropWhile blank).length)) := by
  have hs' : ∀ c ∈ s, c ≠ '\x00' := fun c hc => hs c (by simp [hl, hc])
  unfold fcSecond
  rw [LineBytes.rd_at (P := Q) (c := '-') hb hp, Res.bind_ok, if_pos rfl,
    LineBytes.rd_at (P := Q ++ [some '-', some o]) (c := '\x00')
      (R := s.map some ++ some '\x00' :: tail) (by simp [hb]) (by simp [hp]), Res.bind_ok,
    if_neg (by simp),
    LineBytes.rd_at (P := Q ++ [some '-']) (c := o)
      (R := some '\x00' :: (s.map some ++ some '\x00' :: tail)) (by simp [hb]) (by simp [hp]), Res.bind_ok]
  have e : charField o = some o := by simp [charField, ho]
  rcases strtokB_cases (delim := fcWs) (P := Q ++ [some '-', some o, some '\x00']) (s := s) (R := tail)
    (b := b) (i := i) (by decide) (by simp [hb]) (by simp; omega) hs' with ⟨h0, _, h2⟩ |
    ⟨ds, t, rfl, h0, h1, h3, _, h2⟩ | ⟨ds, t, x, r, rfl, h0, h1, h3, h4, _, h2⟩
  · rw [h2, dropWhile_all (p := blank) h0]; rfl
  · have e2 : (ds ++ t).dropWhile blank = t := by
      have := dropWhile_seps (sep := blank) (r := []) h0 h1 h3
      simpa using this
    rw [h2, e2, if_neg h3, e, Res.bind_ok]
    simp only []
    refine fcFinish_at (a := a ++ ds) (s := t)
      (Q := Q ++ [some '-', some o, some '\x00'] ++ (ds ++ t).map some ++ [some '\x00']) (R := tail)
      (by simp [hb]) (by simp [hl]; omega) (by simp [hl]) (by simp; omega)
  · have e2 : (ds ++ (t ++ x :: r)).dropWhile blank = t ++ x :: r := dropWhile_seps (sep := blank) h0 h1 h3
    rw [h2, e2, if_neg (by simp), e, Res.bind_ok]
    simp only []
    refine fcFinish_at (a := a ++ ds) (s := t ++ x :: r)
      (Q := Q ++ [some '-', some o, some '\x00'] ++ (ds ++ t).map some ++ some '\x00' :: (r.map some ++ [some '\x00']))
      (R := tail)
      (by simp) (by simp [hl]; omega) (by simp [hl]) (by simp; omega)

/-- The second token has no hyphen. -/
theorem fcSecond_plain {b : LineBytes} {line path a s : Str} {c : Char} {p i : Nat} {Q R : LineBytes}
    (hb : b = Q ++ R) (hQ : Q.length = line.length + 1) (hl : line = a ++ s) (hp : p = a.length)
    (hrd : b.rd p = .ok c) (hc : c ≠ '-') :
    fcSecond b line path p i =
      labelRes path none (fcLabel (lineBuf line R) (line.length - s.length)) := by
  unfold fcSecond
  rw [hrd, Res.bind_ok, if_neg hc]
  exact fcFinish_at hb hQ hl hp

/-- The token begins with a hyphen and has more than two characters. -/
theorem fcSecond_long {b : LineBytes} {line path : Str} {x y z : Char} {p i : Nat} {Q R : LineBytes}
    (hb : b = Q ++ some x :: some y :: some z :: R) (hp : p = Q.length) (hx : x = '-') (hz : z ≠ '\x00') :
    fcSecond b line path p i = .ok none := by
  unfold fcSecond
  rw [LineBytes.rd_at (P := Q) (c := x) hb hp, Res.bind_ok, if_pos hx,
    LineBytes.rd_at (P := Q ++ [some x, some y]) (c := z) (R := R) (by simp [hb]) (by simp [hp]), Res.bind_ok,
    if_pos hz]
  rfl

/-- Nothing follows the token. -/
theorem fcSecond_end {b : LineBytes} {line path : Str} {y : Char} {p i : Nat} {Q R : LineBytes}
    (hb : b = Q ++ some '-' :: some y :: some '\x00' :: R) (hp : p = Q.length) (hi : i = p + 2) :
    fcSecond b line path p i = .ok none := by
  unfold fcSecond
  rw [LineBytes.rd_at (P := Q) (c := '-') hb hp, Res.bind_ok, if_pos rfl,
    LineBytes.rd_at (P := Q ++ [some '-', some y]) (c := '\x00') (R := R) (by simp [hb]) (by simp [hp]), Res.bind_ok,
    if_neg (by simp),
    LineBytes.rd_at (P := Q ++ [some '-']) (c := y) (R := some '\x00' :: R) (by simp [hb]) (by simp [hp]), Res.bind_ok,
    strtokB_none (P := Q ++ [some '-', some y]) (ds := []) (R := R) (by decide) (by simp [hb]) (by simp; omega) (by simp)]
  rfl

/-- Parsing a line in its buffer: the line is split, then the context is parsed. -/
theorem parseFcLine_split {line : Str} (tail : LineBytes) (hs : ∀ c ∈ line, c ≠ '\x00')
    (hy : ∀ a b, blank b = true → line ≠ a ++ [b, '-']) :
    parseFcLine (lineBuf line tail) = lineRes line tail := by
  unfold parseFcLine
  rw [cstr_at (b := lineBuf line tail) (i := 0) (P := []) (w := line) (R := tail) rfl rfl hs, Res.bind_ok]
  rcases strtokB_cases (delim := fcWs) (P := []) (s := line) (R := tail) (b := lineBuf line tail) (i := 0)
    (by decide) rfl rfl hs with ⟨_, h1, h2⟩ | ⟨ds, t, rfl, _, _, _, h1, h2⟩ |
    ⟨ds, t, x, r, hline, hds, ht, hne, hx, h1, h2⟩
  · rw [h2, Res.bind_ok]
    rw [lineRes_none (by rw [fcWs_eq] at h1; simp [Spec.splitLine, h1])]
    rfl
  · rw [h2, Res.bind_ok]
    simp only []
    rw [cstr_at (P := ds.map some) (w := t) (R := tail) (by simp [lineBuf]) (by simp)
      (fun c hc => hs c (by simp [hc])), Res.bind_ok,
      strtokB_none (P := (ds ++ t).map some) (ds := []) (R := tail) (by decide) (by simp [lineBuf])
        (by simp) (by simp), Res.bind_ok,
      lineRes_none (by rw [fcWs_eq] at h1; simp [Spec.splitLine, h1])]
    rfl
  · rw [h2, Res.bind_ok]
    simp only []
    rw [cstr_at (P := ds.map some) (w := t) (R := r.map some ++ some '\x00' :: tail) (by simp) (by simp)
      (fun c hc => hs c (by simp [hline, hc])), Res.bind_ok]
    rcases strtokB_cases (delim := fcWs) (P := (ds ++ t).map some ++ [some '\x00']) (s := r) (R := tail)
      (i := 0 + ds.length + t.length + 1)
      (by decide) (by simp; rfl) (by simp; omega) (fun c hc => hs c (by simp [hline, hc])) with ⟨k0, k1, k2⟩ |
      ⟨ds2, t2, rfl, k0, k00, kne, k1, k2⟩ | ⟨ds2, t2, x2, r2, rfl, k0, k00, kne, kx, k1, k2⟩
    · rw [lineRes_none (by
        rw [fcWs_eq] at h1
        simp [Spec.splitLine, h1, dropWhile_all (p := blank) k0])]
      simp only [List.append_assoc, List.cons_append, List.nil_append, List.map_append] at k2 ⊢
      rw [k2]; rfl
    · have hsp : SecondAt line ds t x ds2 t2 := ⟨hline, hds, ht, hne, hx, k0,
        fun c hc => k00 c (List.mem_of_mem_head? hc), kne⟩
      simp only [List.append_assoc, List.cons_append, List.nil_append, List.map_append] at k2 ⊢
      rw [k2, Res.bind_ok]
      simp only []
      have hnn : ∀ c ∈ t2, c ≠ '\x00' := fun c hc => hs c (by simp [hline, hc])
      match t2, kne, hsp, hnn with
      | c :: t2', _, hsp, hnn =>
        by_cases hc : c = '-'
        · subst hc
          match t2', hsp, hnn with
          | [], hsp, hnn => 
            have e := (List.dropLast_concat_getLast (l := x :: ds2) (by simp)).symm
            refine absurd ?_ (hy (ds ++ (t ++ (x :: ds2).dropLast)) ((x :: ds2).getLast (by simp)) ?_)
            · rw [hline, ← List.cons_append]; conv => lhs; rw [e]
              simp only [List.append_assoc, List.cons_append, List.nil_append]
            · rcases List.mem_cons.1 (List.getLast_mem (l := x :: ds2) (by simp)) with h | h
              · rw [h]; exact hx
              · exact k0 _ h
          | [o], hsp, hnn =>
            rw [lineRes_none (by
              rw [splitLine_class hsp (k00 o (by simp)) (by simp)]; rfl)]
            exact fcSecond_end (Q := ds.map some ++ (t.map some ++ some '\x00' :: ds2.map some)) (y := o)
              (R := tail) (by simp) (by simp; omega) (by simp)
          | o :: z :: t2'', hsp, hnn =>
            rw [lineRes_none (splitLine_bad hsp rfl (by
              rw [takeWhile_all (fun c hc => by simp [← fcWs_eq, k00 c hc])]; simp))]
            exact fcSecond_long (Q := ds.map some ++ (t.map some ++ some '\x00' :: ds2.map some)) (y := o) (z := z)
              (R := t2''.map some ++ some '\x00' :: tail) (by simp) (by simp; omega) rfl (hnn z (by simp))
        · rw [lineRes_split (splitLine_plain hsp (by simpa using hc))]
          refine fcSecond_plain (a := ds ++ (t ++ x :: ds2)) (c := c)
            (Q := ds.map some ++ (t.map some ++ some '\x00' :: (ds2.map some ++ ((c :: t2').map some ++ [some '\x00'])))) (R := tail)
            (by simp) (by simp [hline]; omega) (by simp [hline]) (by simp; omega)
            (LineBytes.rd_at (P := ds.map some ++ (t.map some ++ some '\x00' :: ds2.map some))
              (R := t2'.map some ++ some '\x00' :: tail) (by simp) (by simp; omega)) hc
    · have hsp : SecondAt line ds t x ds2 (t2 ++ x2 :: r2) := ⟨hline, hds, ht, hne, hx, k0,
        fun c hc => k00 c (by
          cases t2 with
          | nil => exact absurd rfl kne
          | cons a t2 => simp at hc; simp [hc]), by simp⟩
      simp only [List.append_assoc, List.cons_append, List.nil_append, List.map_append] at k2 ⊢
      rw [k2, Res.bind_ok]
      simp only []
      have hnn : ∀ c ∈ t2, c ≠ '\x00' := fun c hc => hs c (by simp [hline, hc])
      match t2, kne, hsp, hnn with
      | c :: t2', _, hsp, hnn =>
        by_cases hc : c = '-'
        · subst hc
          match t2', hsp, hnn with
          | [], hsp, hnn =>
            rw [lineRes_none (splitLine_bad hsp rfl (by
              have : blank x2 = true := kx
              have e : blank '-' = false := rfl
              simp [this, e]))]
            cases r2 with
            | nil =>
              exact fcSecond_end (Q := ds.map some ++ (t.map some ++ some '\x00' :: ds2.map some)) (y := '\x00')
                (R := tail) (by simp) (by simp; omega) (by simp)
            | cons z r2 =>
              exact fcSecond_long (Q := ds.map some ++ (t.map some ++ some '\x00' :: ds2.map some)) (y := '\x00')
                (z := z) (R := r2.map some ++ some '\x00' :: tail) (by simp) (by simp; omega) rfl
                (hs z (by simp [hline]))
          | [o], hsp, hnn =>
            have hsp' := splitLine_class hsp (k00 o (by simp)) (by simpa [fcWs_eq] using kx)
            have hd : (x2 :: r2).dropWhile blank = r2.dropWhile blank := by
              have : blank x2 = true := kx
              simp [this]
            rw [show [].append (x2 :: r2) = x2 :: r2 from rfl, hd] at hsp'
            rw [fcSecond_class (Q := ds.map some ++ (t.map some ++ some '\x00' :: ds2.map some)) (o := o)
              (s := r2) (tail := tail) (a := ds ++ (t ++ x :: (ds2 ++ ['-', o, x2])))
              (by simp) (by simp; omega) (by simp) (by simp [hline]) (by simp; omega) (hnn o (by simp)) hs]
            split
            · rename_i e
              rw [if_pos e] at hsp'
              rw [lineRes_none hsp']
            · rename_i e
              rw [if_neg e] at hsp'
              rw [lineRes_split hsp']
          | o :: z :: t2'', hsp, hnn =>
            rw [lineRes_none (splitLine_bad hsp rfl (by
              rw [takeWhile_append_all (fun c hc => by simp [← fcWs_eq, k00 c hc])]; simp))]
            exact fcSecond_long (Q := ds.map some ++ (t.map some ++ some '\x00' :: ds2.map some)) (y := o) (z := z)
              (R := t2''.map some ++ some '\x00' :: (r2.map some ++ some '\x00' :: tail)) (by simp) (by simp; omega) rfl (hnn z (by simp))
        · rw [lineRes_split (splitLine_plain hsp (by simpa using hc))]
          refine fcSecond_plain (a := ds ++ (t ++ x :: ds2)) (c := c)
            (Q := ds.map some ++ (t.map some ++ some '\x00' :: (ds2.map some ++ ((c :: t2').map some ++ some '\x00' :: (r2.map some ++ [some '\x00']))))) (R := tail)
            (by simp) (by simp [hline]; omega) (by simp [hline]) (by simp; omega)
            (LineBytes.rd_at (P := ds.map some ++ (t.map some ++ some '\x00' :: ds2.map some))
              (R := t2'.map some ++ some '\x00' :: (r2.map some ++ some '\x00' :: tail)) (by simp) (by simp; omega)) hc

theorem dropWhile_is_suffix (p : Char → Bool) (s : Str) : ∃ a, s = a ++ s.dropWhile p :=
  ⟨s.takeWhile p, (List.takeWhile_append_dropWhile).symm⟩

theorem splitLine_suffix {line path s : Str} {cls : Option Char}
    (h : Spec.splitLine line = some (path, cls, s)) : ∃ a, line = a ++ s := by
  have htok : ∀ t r, token blank line = some (t, r) → ∃ a, line = a ++ r := by
    intro t r ht
    simp only [token] at ht
    split at ht
    · cases ht
    · injection ht with ht
      injection ht with h1 h2
      subst h2
      obtain ⟨a, ha⟩ := dropWhile_is_suffix blank line
      obtain ⟨b, hb⟩ := dropWhile_is_suffix (!blank ·) (line.dropWhile blank)
      refine ⟨a ++ b ++ (((line.dropWhile blank).dropWhile (!blank ·)).take 1), ?_⟩
      rw [List.append_assoc, List.take_append_drop, List.append_assoc, ← hb, ← ha]
  unfold Spec.splitLine at h
  split at h
  · cases h
  · rename_i p r ht
    obtain ⟨a, ha⟩ := htok _ _ ht
    obtain ⟨b, hb⟩ := dropWhile_is_suffix blank r
    simp only at h
    split at h
    · cases h
    · split at h
      · split at h
        · split at h
          · cases h
          · injection h with h
            injection h with h1 h2
            injection h2 with h2 h3
            obtain ⟨c, hc⟩ := dropWhile_is_suffix (!blank ·) (r.dropWhile blank)
            obtain ⟨d, hd⟩ := dropWhile_is_suffix blank ((r.dropWhile blank).dropWhile (!blank ·))
            refine ⟨a ++ (b ++ (c ++ d)), ?_⟩
            rw [← h3, List.append_assoc, List.append_assoc, List.append_assoc, ← hd, ← hc, ← hb, ← ha]
        · cases h
      · injection h with h
        injection h with h1 h2
        injection h2 with h2 h3
        refine ⟨a ++ b, ?_⟩
        rw [← h3, List.append_assoc, ← hb, ← ha]

theorem entryText_split {line path s : Str} {cls : Option Char}
    (h : Spec.splitLine line = some (path, cls, s)) : Spec.entryText line = labelEntry path cls s := by
  simp only [Spec.entryText, h, labelEntry]

theorem entryText_none {line : Str} (h : Spec.splitLine line = none) : Spec.entryText line = none := by
  simp only [Spec.entryText, h]

/-- Parsing a line in its buffer, as a function on text. -/
theorem parseFcLine_text {line : Str} (tail : LineBytes) (h : Spec.Tame line) :
    parseFcLine (lineBuf line tail) = .ok (Spec.entryText line) := by
  rw [parseFcLine_split tail h.no_nul h.no_hyphen]
  match hsp : Spec.splitLine line with
  | none => rw [lineRes_none hsp, entryText_none hsp]
  | some (path, cls, s) =>
    obtain ⟨a, ha⟩ := splitLine_suffix hsp
    rw [lineRes_split hsp, entryText_split hsp,
      fcLabel_at (a := a) (s := s) ha (by rw [ha]; simp) h.no_nul (h.reaches _ _ _ hsp)]

end Selint
