import Verif.Model.Template
import Verif.Props.Main
/-! # Lemmas about m4 substitution -/

namespace Selint

/-- Functional reading of `replace_m4`: the text produced and whether it is followed by a
terminator. The number is how many characters are still to be skipped, `t` whether the
output so far is followed by a terminator, `l` whether the last thing seen was plain text. -/
def m4Fun (args : List Str) : Nat → Bool → Bool → Str → Option (Str × Bool)
  | _, t, l, [] => some ([], t || l)
  | k + 1, t, l, _ :: s => m4Fun args k t l s
  | 0, t, l, c :: s =>
    if c = '$' then
      match scanInt s with
      | none => none
      | some (n, rest) =>
        match m4Arg args n with
        | none => m4Fun args (s.length - rest.length) t false s
        | some a => (m4Fun args (s.length - rest.length) true false s).map fun p => (a ++ p.1, p.2)
    else (m4Fun args 0 false true s).map fun p => (c :: p.1, p.2)

theorem m4Fun_skip (args : List Str) (k : Nat) (t l : Bool) (s : Str) :
    m4Fun args k t l s = m4Fun args 0 t l (s.drop k) := by
  induction s generalizing k with
  | nil => cases k <;> simp [m4Fun]
  | cons c s ih =>
    cases k with
    | zero => rfl
    | succ k => simp only [m4Fun, List.drop_succ_cons]; exact ih k

theorem scanInt_suffix {s rest : Str} {n : Int} (h : scanInt s = some (n, rest)) :
    ∃ num, s = num ++ rest ∧ num ≠ [] ∧ '$' ∉ num := by
  unfold scanInt at h
  simp only at h
  generalize ht : s.dropWhile isSpaceC = t at h
  have hs : s = s.takeWhile isSpaceC ++ t := by rw [← ht]; exact (List.takeWhile_append_dropWhile).symm
  have hsp : '$' ∉ s.takeWhile isSpaceC := by
    intro hm
    have := List.all_eq_true.mp List.all_takeWhile _ hm
    exact absurd this (by decide)
  have key : ∀ u : Str, (u.takeWhile isDigitC).isEmpty = false → ∀ sg : Str, t = sg ++ u → '$' ∉ sg →
      rest = u.dropWhile isDigitC → ∃ num, s = num ++ rest ∧ num ≠ [] ∧ '$' ∉ num := by
    intro u hne sg htu hsg hr
    refine ⟨s.takeWhile isSpaceC ++ sg ++ u.takeWhile isDigitC, ?_, ?_, ?_⟩
    · subst hr
      conv => lhs; rw [hs, htu]
      simp [List.takeWhile_append_dropWhile]
    · simp at hne; simp [hne]
    · intro hm
      simp only [List.mem_append] at hm
      rcases hm with (hm | hm) | hm
      · exact hsp hm
      · exact hsg hm
      · have := List.all_eq_true.mp List.all_takeWhile _ hm
        exact absurd this (by decide)
  split at h
  · rename_i _ u
    split at h
    · simp at h
    · rename_i hne; simp at h
      exact key u (by simpa using hne) ['-'] (by simp) (by decide) h.2.symm
  · rename_i _ u
    split at h
    · simp at h
    · rename_i hne; simp at h
      exact key u (by simpa using hne) ['+'] (by simp) (by decide) h.2.symm
  · rename_i u
    split at h
    · simp at h
    · rename_i hne; simp at h
      exact key t (by simpa using hne) [] (by simp) (by simp) h.2.symm

theorem cutAt_some {c : Char} {s a b : Str} (h : cutAt c s = some (a, b)) :
    s = a ++ c :: b ∧ c ∉ a := by
  induction s generalizing a with
  | nil => simp [cutAt] at h
  | cons x s ih =>
    simp only [cutAt] at h
    split at h
    · rename_i hx; simp at h; obtain ⟨rfl, rfl⟩ := h; simp [hx]
    · rename_i hx
      split at h
      · rename_i a' b' hc
        simp at h; obtain ⟨rfl, rfl⟩ := h
        obtain ⟨h1, h2⟩ := ih hc
        exact ⟨by simp [h1], by simp [h2, Ne.symm hx]⟩
      · simp at h

theorem cutAt_none {c : Char} {s : Str} : cutAt c s = none ↔ c ∉ s := by
  induction s with
  | nil => simp [cutAt]
  | cons x s ih =>
    simp only [cutAt]
    split
    · rename_i h; simp [h]
    · rename_i h
      split
      · rename_i hc; rw [hc] at ih; simp at ih; simp [ih]
      · rename_i hc; rw [hc] at ih; simp at ih; simp [ih, Ne.symm h]

theorem m4Fun_text (args : List Str) (t l : Bool) (pre s : Str) (h : '$' ∉ pre) :
    m4Fun args 0 t l (pre ++ s) =
      (m4Fun args 0 (t && pre.isEmpty) (l || !pre.isEmpty) s).map fun p => (pre ++ p.1, p.2) := by
  induction pre generalizing t l with
  | nil => simp
  | cons c pre ih =>
    simp at h
    have hc : c ≠ '$' := fun e => h.1 e.symm
    simp only [List.cons_append, m4Fun, if_neg hc, ih _ _ h.2]
    simp [Option.map_map]; congr

theorem m4Fun_ref (args : List Str) (t l : Bool) (s rest : Str) (n : Int)
    (h : scanInt s = some (n, rest)) :
    m4Fun args 0 t l ('$' :: s) =
      match m4Arg args n with
      | none => m4Fun args 0 t false rest
      | some a => (m4Fun args 0 true false rest).map fun p => (a ++ p.1, p.2) := by
  obtain ⟨num, rfl, _, _⟩ := scanInt_suffix h
  simp only [m4Fun, if_true, h]
  cases m4Arg args n with
  | none => simp only; rw [m4Fun_skip]; simp
  | some a => simp only; rw [m4Fun_skip]; simp

/-- The unwritten rest of the buffer. -/
def m4Tail (t : Bool) (n : Nat) : Buf :=
  if t then .nul :: List.replicate (n - 1) .junk else List.replicate n .junk

theorem m4Tail_length (t : Bool) (n : Nat) (h : t = true → 0 < n) : (m4Tail t n).length = n := by
  unfold m4Tail; cases t
  · simp
  · simp at h ⊢; omega

theorem bufWrite_tail (w : Str) (t : Bool) (n : Nat) (h : t = true → 0 < n) (s : List Cell) :
    bufWrite (w.map .ch ++ m4Tail t n) w.length s =
      if s.length ≤ n then .ok (w.map .ch ++ s ++ (m4Tail t n).drop s.length) else .ub := by
  unfold bufWrite
  simp only [List.length_append, List.length_map, m4Tail_length t n h]
  by_cases hs : s.length ≤ n
  · rw [if_pos (by omega), if_pos hs]
    congr 1
    have h1 : (w.map Cell.ch).length = w.length := by simp
    rw [List.take_append_of_le_length (by simp), List.take_of_length_le (by simp)]
    congr 1
    rw [List.drop_append]
    simp
  · rw [if_neg (by omega), if_neg hs]

theorem m4Tail_drop (t : Bool) (n k : Nat) (hk : 0 < k) :
    (m4Tail t n).drop k = List.replicate (n - k) .junk := by
  unfold m4Tail
  cases t
  · simp
  · obtain ⟨k, rfl⟩ : ∃ j, k = j + 1 := ⟨k - 1, by omega⟩
    simp only [if_true, List.drop_succ_cons, List.drop_replicate]; congr 1; omega

theorem bufStrncpy_tail (w : Str) (t : Bool) (n : Nat) (h : t = true → 0 < n) (s : Str) :
    bufStrncpy (w.map .ch ++ m4Tail t n) w.length s =
      if s.length ≤ n then .ok ((w ++ s).map .ch ++ m4Tail (t && s.isEmpty) (n - s.length))
      else .ub := by
  unfold bufStrncpy
  rw [bufWrite_tail w t n h]
  simp only [List.length_map]
  cases s with
  | nil => simp
  | cons c s =>
    rw [m4Tail_drop _ _ _ (by simp)]
    simp [m4Tail]

theorem bufStrcpy_tail (w : Str) (t : Bool) (n : Nat) (h : t = true → 0 < n) (s : Str) :
    bufStrcpy (w.map .ch ++ m4Tail t n) w.length s =
      if s.length + 1 ≤ n then .ok ((w ++ s).map .ch ++ m4Tail true (n - s.length)) else .ub := by
  unfold bufStrcpy
  rw [bufWrite_tail w t n h]
  simp only [List.length_append, List.length_map, List.length_singleton]
  rw [m4Tail_drop _ _ _ (by simp)]
  by_cases hs : s.length + 1 ≤ n
  · rw [if_pos hs, if_pos hs]
    simp [m4Tail, Nat.sub_sub]
  · rw [if_neg hs, if_neg hs]

theorem m4Fun_length_term (args : List Str) (s : Str) : ∀ (k : Nat) (t l : Bool) (r : Str),
    m4Fun args k t l s = some (r, false) → t = true → 0 < r.length := by
  induction s with
  | nil => intro k t l r h ht; simp [m4Fun] at h; simp [h.2.1] at ht
  | cons c s ih =>
    intro k t l r h ht
    cases k with
    | succ k => exact ih k t l r (by simpa [m4Fun] using h) ht
    | zero =>
      simp only [m4Fun] at h
      split at h
      · split at h
        · simp at h
        · split at h
          · exact ih _ _ _ _ h ht
          · simp only [Option.map_eq_some_iff] at h
            obtain ⟨⟨r', b⟩, h1, h2⟩ := h
            simp at h2; obtain ⟨rfl, rfl⟩ := h2
            have := ih _ _ _ _ h1 rfl
            simp; omega
      · simp only [Option.map_eq_some_iff] at h
        obtain ⟨⟨r', b⟩, h1, h2⟩ := h
        simp at h2; obtain ⟨rfl, rfl⟩ := h2
        simp

/-- What the loop computes. `w` is the text written so far, `n` the room left. -/
theorem m4Loop_eq (args : List Str) (fuel : Nat) (orig w : Str) (t : Bool) (n : Nat)
    (hf : orig.length < fuel) (ht : t = true → 0 < n) :
    match m4Fun args 0 t false orig with
    | none => m4Loop args fuel orig (w.map .ch ++ m4Tail t n) w.length = .ok none ∨
        m4Loop args fuel orig (w.map .ch ++ m4Tail t n) w.length = .ub
    | some (r, term) => m4Loop args fuel orig (w.map .ch ++ m4Tail t n) w.length =
        if r.length + (if term then 1 else 0) ≤ n then
          .ok (some ((w ++ r).map .ch ++ m4Tail term (n - r.length))) else .ub := by
  induction fuel generalizing orig w t n with
  | zero => omega
  | succ fuel ih =>
    cases orig with
    | nil =>
      simp only [m4Fun, m4Loop, List.isEmpty_nil, if_true, Bool.or_false]
      cases t
      · simp
      · have := ht rfl
        simp; omega
    | cons c0 orig0 =>
      generalize ho : c0 :: orig0 = orig at *
      have hne : orig.isEmpty = false := by subst ho; rfl
      unfold m4Loop
      simp only [hne, Bool.false_eq_true, if_false]
      cases hc : cutAt '$' orig with
      | none =>
        have hd := cutAt_none.mp hc
        have := m4Fun_text args t false orig [] hd
        rw [List.append_nil] at this
        simp only [this, m4Fun, Option.map_some, List.append_nil, hne, Bool.not_false, Bool.or_true,
          bufStrcpy_tail w t n ht, if_true]
        by_cases hl : orig.length + 1 ≤ n
        · simp only [hl, if_true]
        · simp only [hl, if_false]
      | some p =>
        obtain ⟨pre, rest⟩ := p
        obtain ⟨heq, hpre⟩ := cutAt_some hc
        have e1 := m4Fun_text args t false pre ('$' :: rest) hpre
        rw [← heq] at e1
        simp only [bufStrncpy_tail w t n ht]
        have hlen : rest.length < fuel := by
          have := congrArg List.length heq; simp at this; omega
        cases hs : scanInt rest with
        | none =>
          have : m4Fun args 0 t false orig = none := by
            rw [e1]; simp [m4Fun, hs]
          rw [this]
          by_cases hl : pre.length ≤ n
          · simp [hl]
          · simp [hl]
        | some q =>
          obtain ⟨num, rest'⟩ := q
          obtain ⟨nt, hnt, hnt2, _⟩ := scanInt_suffix hs
          have hlen' : rest'.length < fuel := by
            have := congrArg List.length hnt; simp at this; omega
          have e2 := m4Fun_ref args (t && pre.isEmpty) (false || !pre.isEmpty) rest rest' num hs
          rw [e2] at e1
          by_cases hl : pre.length ≤ n
          · simp only [hl, if_true]
            cases ha : m4Arg args num with
            | none =>
              simp only [ha] at e1 ⊢
              have ht' : (t && pre.isEmpty) = true → 0 < n - pre.length := by
                intro h; simp at h; have := ht h.1; simp [h.2]; exact this
              have := ih rest' (w ++ pre) (t && pre.isEmpty) (n - pre.length) hlen' ht'
              rw [e1]
              cases hm : m4Fun args 0 (t && pre.isEmpty) false rest' with
              | none => rw [hm] at this; simpa using this
              | some rt =>
                obtain ⟨r, term⟩ := rt
                rw [hm] at this
                simp only [List.length_append] at this
                simp only [Option.map_some, this]
                have e3 : (r.length + (if term = true then 1 else 0) ≤ n - pre.length) ↔
                    ((pre ++ r).length + (if term = true then 1 else 0) ≤ n) := by
                  simp; omega
                by_cases h4 : r.length + (if term = true then 1 else 0) ≤ n - pre.length
                · rw [if_pos h4, if_pos (e3.mp h4)]; simp [Nat.sub_sub]
                · rw [if_neg h4, if_neg (fun h => h4 (e3.mpr h))]
            | some a =>
              simp only [ha] at e1 ⊢
              have ht' : (t && pre.isEmpty) = true → 0 < n - pre.length := by
                intro h; simp at h; have := ht h.1; simp [h.2]; exact this
              have hcpy := bufStrcpy_tail (w ++ pre) (t && pre.isEmpty) (n - pre.length) ht' a
              rw [List.length_append] at hcpy
              rw [hcpy, e1]
              by_cases h5 : a.length + 1 ≤ n - pre.length
              · simp only [h5, if_true]
                have := ih rest' (w ++ pre ++ a) true (n - pre.length - a.length) hlen' (by intro; omega)
                cases hm : m4Fun args 0 true false rest' with
                | none => rw [hm] at this; simpa [Nat.add_assoc] using this
                | some rt =>
                  obtain ⟨r, term⟩ := rt
                  rw [hm] at this
                  simp only [List.length_append] at this
                  simp only [Option.map_some, this]
                  have e3 : (r.length + (if term = true then 1 else 0) ≤ n - pre.length - a.length) ↔
                      ((pre ++ (a ++ r)).length + (if term = true then 1 else 0) ≤ n) := by
                    simp; omega
                  by_cases h4 : r.length + (if term = true then 1 else 0) ≤ n - pre.length - a.length
                  · rw [if_pos h4, if_pos (e3.mp h4)]; simp [Nat.sub_sub, Nat.add_assoc]
                  · rw [if_neg h4, if_neg (fun h => h4 (e3.mpr h))]
              · simp only [h5, if_false]
                cases hm : m4Fun args 0 true false rest' with
                | none => simp
                | some rt =>
                  obtain ⟨r, term⟩ := rt
                  simp only [Option.map_some]
                  rw [if_neg]
                  intro h6
                  have hr : term = false → 0 < r.length := by
                    rintro rfl
                    exact m4Fun_length_term args rest' 0 true false r hm rfl
                  cases term
                  · have := hr rfl; simp at h6; omega
                  · simp at h6; omega
          · simp only [hl, if_false]
            rw [e1]
            split
            · simp
            · rename_i r term heq2
              rw [if_neg]
              intro h6
              have : ∃ r', r = pre ++ r' := by
                cases ha : m4Arg args num with
                | none =>
                  rw [ha] at heq2
                  simp only [Option.map_eq_some_iff] at heq2
                  obtain ⟨p, _, hp⟩ := heq2
                  exact ⟨p.1, (congrArg Prod.fst hp).symm⟩
                | some a =>
                  rw [ha] at heq2
                  simp only [Option.map_eq_some_iff] at heq2
                  obtain ⟨p, _, hp⟩ := heq2
                  exact ⟨p.1, (congrArg Prod.fst hp).symm⟩
              obtain ⟨r', rfl⟩ := this
              simp at h6; omega

theorem bufString_tail (r : Str) (t : Bool) (n : Nat) :
    bufString (r.map .ch ++ m4Tail t n) = if t then .ok r else .ub := by
  induction r with
  | nil =>
    cases t
    · simp [m4Tail]; cases n <;> simp [bufString, List.replicate_succ]
    · simp [m4Tail, bufString]
  | cons c r ih =>
    simp only [List.map_cons, List.cons_append, bufString, ih]
    cases t <;> simp

/-- Exactly when `replace_m4` is well defined, and what it returns. -/
theorem replaceM4_eq (orig : Str) (args : List Str) :
    match m4Fun args 0 true false orig with
    | none => replaceM4 orig args = .ok none ∨ replaceM4 orig args = .ub
    | some (r, term) => replaceM4 orig args =
        if term = true ∧ r.length < m4BufSize orig args then .ok (some r) else .ub := by
  have hsz : 0 < m4BufSize orig args := by unfold m4BufSize; omega
  have hinit : m4Init (m4BufSize orig args) = ([] : Str).map .ch ++ m4Tail true (m4BufSize orig args) := by
    simp [m4Init, m4Tail]
  have := m4Loop_eq args (orig.length + 1) orig [] true (m4BufSize orig args) (by omega) (fun _ => hsz)
  unfold replaceM4
  rw [hinit]
  simp only [List.length_nil] at this
  cases hm : m4Fun args 0 true false orig with
  | none =>
    rw [hm] at this
    rcases this with h | h <;> simp only [h]
    · simp
    · simp
  | some p =>
    obtain ⟨r, term⟩ := p
    rw [hm] at this
    simp only [this]
    by_cases h : r.length + (if term = true then 1 else 0) ≤ m4BufSize orig args
    · simp only [h, if_true, List.nil_append, bufString_tail]
      cases term
      · simp
      · simp at h; simp; exact h
    · simp only [h, if_false]
      rw [if_neg]
      rintro ⟨rfl, h2⟩
      apply h; simp; omega

end Selint
