import Verif.Spec.LineCache
import Verif.Lemmas.LexTokens
import Verif.Lemmas.Basic
/-! # Lemmas on the lines kept for error messages -/

namespace Selint

open Spec

/-! ## Lines -/

theorem getline_line {l rest : Str} (h : '\n' ∉ l) : getline (l ++ '\n' :: rest) = some (l ++ ['\n'], rest) := by
  induction l with
  | nil => simp [getline]
  | cons c l ih =>
    simp only [List.mem_cons, not_or] at h
    simp only [List.cons_append, getline, ih h.2]
    rw [if_neg (fun e => h.1 e.symm)]

theorem getline_last {l : Str} (h : '\n' ∉ l) (hl : l ≠ []) : getline l = some (l, []) := by
  induction l with
  | nil => exact absurd rfl hl
  | cons c l ih =>
    simp only [List.mem_cons, not_or] at h
    simp only [getline]
    rw [if_neg (fun e => h.1 e.symm)]
    cases l with
    | nil => rfl
    | cons d l => rw [ih h.2 (by simp)]

theorem linesOf_exists : ∀ (n : Nat) (s : Str), s.length ≤ n → ∃ ls, LinesOf s ls := by
  intro n
  induction n with
  | zero => intro s h; cases s with
    | nil => exact ⟨_, .nil⟩
    | cons c s => simp at h
  | succ n ih =>
    intro s h
    by_cases hn : '\n' ∈ s
    · obtain ⟨a, b, rfl, ha⟩ := List.eq_append_cons_of_mem hn
      obtain ⟨ls, hls⟩ := ih b (by simp at h; omega)
      exact ⟨_, .line ha hls⟩
    · cases s with
      | nil => exact ⟨_, .nil⟩
      | cons c s => exact ⟨_, .last hn (by simp)⟩

theorem Spec.LinesOf.flatten {s : Str} {ls : List Str} (h : LinesOf s ls) : ls.flatten = s := by
  induction h with
  | nil => rfl
  | last => simp
  | line _ _ ih => simp [ih]

theorem Spec.LinesOf.nonempty {s : Str} {ls : List Str} (h : LinesOf s ls) : ∀ l ∈ ls, l ≠ [] := by
  induction h with
  | nil => simp
  | last _ hl => simpa using hl
  | line _ _ ih => simpa using ih

/-! ## Keeping lines -/

theorem Spec.KeepsLines.fresh : KeepsLines .fresh [] where
  size := by simp [LineCache.fresh]
  index := rfl
  kept := by intro k h1 _ h3; simp at h3; omega

theorem Spec.KeepsLines.push {c : LineCache} {seen : List Str} (h : KeepsLines c seen) (l : Str) (sent len : Nat) :
    KeepsLines ⟨c.lines.set ((c.index + 1) % linesToCache) (some l), (c.index + 1) % linesToCache, sent, len⟩
      (seen ++ [l]) where
  size := by simpa using h.size
  index := by
    simp only [h.index, List.length_append, List.length_singleton, Nat.mod_add_mod]
  kept := by
    intro k h1 h2 h3
    have hs := h.size
    have hi : c.index < 5 := by rw [h.index]; exact Nat.mod_lt _ (by decide)
    simp only [linesToCache] at *
    simp only [List.length_append, List.length_singleton] at h3 ⊢
    rcases Nat.lt_or_ge 1 k with hk | hk
    · obtain ⟨l', e1, e2⟩ := h.kept (k - 1) (by omega) (by simp only [linesToCache]; omega) (by omega)
      refine ⟨l', ?_, ?_⟩
      · rw [List.getElem?_append_left (by omega), ← e1]; congr 1; omega
      · simp only [linesToCache] at e2
        rw [List.getElem?_set_ne, ← e2]
        · congr 1; omega
        · omega
    · have : k = 1 := by omega
      subst this
      refine ⟨l, by simp, ?_⟩
      rw [show (5 + (c.index + 1) % 5 - 1 + 1) % 5 = (c.index + 1) % 5 by omega]
      rw [List.getElem?_set_self (by omega)]

theorem Spec.KeepsLines.sent {c : LineCache} {seen : List Str} (h : KeepsLines c seen) (n : Nat) :
    KeepsLines { c with sent := n } seen := ⟨h.size, h.index, h.kept⟩

/-- The current line. -/
theorem Spec.KeepsLines.current {c : LineCache} {seen : List Str} (h : KeepsLines c seen) (hs : seen ≠ []) :
    ∃ l, seen.getLast? = some l ∧ c.lines[c.index]? = some (some l) := by
  have hl : 1 ≤ seen.length := by
    cases seen with
    | nil => exact absurd rfl hs
    | cons => simp
  obtain ⟨l, e1, e2⟩ := h.kept 1 (by omega) (by decide) hl
  have hi : c.index < 5 := by rw [h.index]; exact Nat.mod_lt _ (by decide)
  refine ⟨l, by rw [List.getLast?_eq_getElem?, e1], ?_⟩
  rw [← e2]; congr 1
  simp only [linesToCache]; omega

/-! ## Handing out -/

/-- Of the lines `ls` of a file the first `n` have been read, and its end `m` times; `given` has
been handed out and `file` has not been read. -/
structure Fed (ls : List Str) (n m : Nat) (given : Str) (c : LineCache) (file : Str) : Prop where
  keeps : KeepsLines c (ls.take n ++ List.replicate m [])
  bound : n ≤ ls.length
  ended : 0 < m → n = ls.length
  lines : LinesOf file (ls.drop n)
  given : given ++ pending c ++ file = ls.flatten
  sent : c.sent ≤ c.len
  len : c.len - c.sent = (pending c).length
  size : ∀ l, c.lines[c.index]? = some (some l) → c.len = l.length

theorem Fed.start {text : Str} {ls : List Str} (h : LinesOf text ls) : Fed ls 0 0 [] .fresh text where
  keeps := by simpa using KeepsLines.fresh
  bound := Nat.zero_le _
  ended := by simp
  lines := by simpa using h
  given := by simp [h.flatten, LineCache.fresh, pending, linesToCache]
  sent := Nat.le_refl _
  len := by simp [LineCache.fresh, pending, linesToCache]
  size := by simp [LineCache.fresh, linesToCache]

theorem pending_set {c : LineCache} {seen : List Str} (h : KeepsLines c seen) (l : Str) (len : Nat) :
    pending ⟨c.lines.set ((c.index + 1) % linesToCache) (some l), (c.index + 1) % linesToCache, 0, len⟩ = l := by
  have : (c.index + 1) % linesToCache < c.lines.length := by
    rw [h.size]; exact Nat.mod_lt _ (by decide)
  simp [pending, this]

/-- Reading on: either there is something pending, or the next line is read, or the end is met. -/
theorem Fed.refill {ls : List Str} {n m : Nat} {given : Str} {c : LineCache} {file : Str}
    (h : Fed ls n m given c file) : ∃ n' m', Fed ls n' m' given (c.refill file).1 (c.refill file).2 ∧
      (∃ l, (c.refill file).1.lines[(c.refill file).1.index]? = some (some l)) ∧
      (pending (c.refill file).1 = [] → m' = m + 1 ∧ (c.refill file).2 = [] ∧ n' = ls.length) ∧
      ((pending c = [] ∧ file ≠ [] ∧ n' = n + 1 ∧ m' = m) ∨ (pending c = [] ∧ file = [] ∧ n' = n ∧ m' = m + 1) ∨
        (pending c ≠ [] ∧ n' = n ∧ m' = m ∧ (c.refill file).1 = c ∧ (c.refill file).2 = file)) := by
  unfold LineCache.refill
  by_cases h0 : c.len - c.sent = 0
  · have hp : pending c = [] := by
      have := h.len; rw [h0] at this
      exact List.eq_nil_of_length_eq_zero this.symm
    have hi : (c.index + 1) % linesToCache < c.lines.length := by
      rw [h.keeps.size]; exact Nat.mod_lt _ (by decide)
    rw [if_pos h0]
    have hg := h.given
    rw [hp, List.append_nil] at hg
    cases hf : file with
    | nil =>
      rw [hf] at hg
      have hd : ls.drop n = [] := by
        have := h.lines
        rw [hf] at this
        generalize ls.drop n = d at this
        generalize ht : ([] : Str) = t at this
        cases this with
        | nil => rfl
        | last _ hl => exact absurd ht.symm hl
        | line => simp at ht
      have hn : n = ls.length := by
        have := List.drop_eq_nil_iff.1 hd
        have := h.bound; omega
      refine ⟨n, m + 1, ⟨?_, h.bound, fun _ => hn, ?_, ?_, ?_, ?_, ?_⟩, ⟨[], ?_⟩, ?_, .inr (.inl ⟨hp, rfl, rfl, rfl⟩)⟩
      · have := h.keeps.push [] 0 0
        rw [List.append_assoc, ← List.replicate_succ'] at this
        exact this
      · rw [hd]; exact .nil
      · simp only [getline]
        rw [pending_set h.keeps]; simpa using hg
      · exact Nat.le_refl _
      · simp only [getline]; rw [pending_set h.keeps]; rfl
      · simp [getline, hi]
      · simp [getline, hi]
      · intro _; exact ⟨rfl, rfl, hn⟩
    | cons x xs =>
      have hl := h.lines
      have hm : m = 0 := by
        rcases Nat.eq_zero_or_pos m with hm | hm
        · exact hm
        · have := h.ended hm
          subst this
          rw [List.drop_length, hf] at hl
          generalize hd : ([] : List Str) = d at hl
          generalize ht : x :: xs = t at hl
          cases hl with
          | nil => cases ht
          | last => cases hd
          | line => cases hd
      subst hm
      have key : ∃ l rest, getline (x :: xs) = some (l, rest) ∧ l ++ rest = x :: xs ∧ l ≠ [] ∧
          ∃ ls', ls.drop n = l :: ls' ∧ LinesOf rest ls' := by
        rw [hf] at hl
        generalize ls.drop n = d at hl ⊢
        generalize ht : x :: xs = t at hl ⊢
        cases hl with
        | nil => cases ht
        | last hn hne => exact ⟨_, [], getline_last hn hne, by simp, hne, [], rfl, .nil⟩
        | line hn hr => exact ⟨_, _, getline_line hn, by simp, by simp, _, rfl, hr⟩
      obtain ⟨l, rest, e1, e2, e3, ls', e4, e5⟩ := key
      have hlt : n < ls.length := by
        rcases Nat.lt_or_ge n ls.length with h' | h'
        · exact h'
        · rw [List.drop_eq_nil_iff.2 h'] at e4; cases e4
      have hget : ls[n]? = some l := by
        have := congrArg List.head? e4
        simpa [List.head?_drop] using this
      have hdrop : ls.drop (n + 1) = ls' := by
        have := congrArg List.tail e4
        simpa using this
      have htake : ls.take (n + 1) = ls.take n ++ [l] := by
        rw [List.take_add_one, hget]; rfl
      simp only [e1]
      refine ⟨n + 1, 0, ⟨?_, hlt, by simp, ?_, ?_, ?_, ?_, ?_⟩, ⟨l, ?_⟩, ?_, .inl ⟨hp, by simp, rfl, rfl⟩⟩
      · have := h.keeps.push l 0 l.length
        simpa [htake] using this
      · rw [hdrop]; exact e5
      · rw [pending_set h.keeps, ← hg, hf, List.append_assoc, e2]
      · exact Nat.zero_le _
      · rw [pending_set h.keeps]; simp
      · simp [hi]
      · simp [hi]
      · rw [pending_set h.keeps]; intro hc; exact absurd hc e3
  · rw [if_neg h0]
    have hp : pending c ≠ [] := by
      intro hc
      have := h.len; rw [hc] at this; simp at this; omega
    refine ⟨n, m, h, ?_, fun hc => absurd hc hp, .inr (.inr ⟨hp, rfl, rfl, rfl, rfl⟩)⟩
    unfold pending at hp
    split at hp
    · rename_i l hl; exact ⟨l, hl⟩
    · exact absurd rfl hp

/-- One call of `YY_INPUT`. -/
theorem Fed.input {ls : List Str} {n m : Nat} {given : Str} {c : LineCache} {file : Str}
    (h : Fed ls n m given c file) {room : Nat} (hr : 0 < room) :
    ∃ got c' file' n' m', yyInput room c file = .ok (got, c', file') ∧ Fed ls n' m' (given ++ got) c' file' ∧
      got = (pending (c.refill file).1).take room ∧ (got = [] → given = ls.flatten ∧ n' = ls.length ∧ m' = m + 1) ∧
      ((pending c = [] ∧ file ≠ [] ∧ n' = n + 1 ∧ m' = m) ∨ (pending c = [] ∧ file = [] ∧ n' = n ∧ m' = m + 1) ∨
        (pending c ≠ [] ∧ n' = n ∧ m' = m)) := by
  obtain ⟨n', m', h', ⟨l, hl⟩, he, hc⟩ := h.refill
  unfold yyInput
  generalize hrf : c.refill file = cf at *
  obtain ⟨d, file'⟩ := cf
  dsimp only at *
  have hpd : pending d = l.drop d.sent := by simp [pending, hl]
  have hlen := h'.len
  have hsz := h'.size l hl
  have hsent := h'.sent
  rw [hl]
  dsimp only
  have hle : d.sent + min (d.len - d.sent) room ≤ l.length := by omega
  rw [if_pos hle]
  have hgot : (l.drop d.sent).take (min (d.len - d.sent) room) = (pending d).take room := by
    rw [hpd, List.take_eq_take_iff]
    simp only [List.length_drop]
    omega
  have hpend : pending { d with sent := d.sent + min (d.len - d.sent) room } =
      (l.drop d.sent).drop (min (d.len - d.sent) room) := by
    simp [pending, hl, List.drop_drop]
  refine ⟨_, _, _, n', m', rfl, ⟨h'.keeps.sent _, h'.bound, h'.ended, h'.lines, ?_, ?_, ?_, h'.size⟩, hgot, ?_, ?_⟩
  · rw [hpend, List.append_assoc given, List.take_append_drop, ← hpd]; exact h'.given
  · dsimp only; omega
  · rw [hpend]; simp only [List.length_drop]; omega
  · intro h0
    have : pending d = [] := by
      rw [hgot] at h0
      cases hpp : pending d with
      | nil => rfl
      | cons x xs =>
        rw [hpp] at h0
        obtain ⟨r, rfl⟩ : ∃ r, room = r + 1 := ⟨room - 1, by omega⟩
        simp at h0
    obtain ⟨e1, e2, e3⟩ := he this
    have hg := h'.given
    rw [this, e2] at hg
    exact ⟨by simpa using hg, e3, e1⟩
  · rcases hc with hc | hc | ⟨hc, hc', hc'', _⟩
    · exact .inl hc
    · exact .inr (.inl hc)
    · exact .inr (.inr ⟨hc, hc', hc''⟩)

/-! ## The scanner does not look behind the end of a line -/

theorem match_key {j : Nat} {r : LexRule} {t c : Str} (hr : RuleAt j r) (h : RuleMatches r t c) :
    '\n' ∉ t ∨ (t = ['\n'] ∧ c = []) := by
  have htt : Texts r.rx t := by cases h <;> assumption
  cases hr with
  | @kw j k h hj => exact .inl (avoids_texts htt (by cases k <;> decide))
  | @punct j p h => exact .inl (avoids_texts htt (by cases p <;> decide))
  | space =>
    cases h with
    | plain _ h =>
      cases h with
      | @chars _ d hd =>
        by_cases hn : d = '\n'
        · exact .inr ⟨by rw [hn], rfl⟩
        · exact .inl (by simpa using fun e => hn e.symm)
    | eol he => cases he
  | _ => exact .inl (avoids_texts htt (by decide))

theorem match_nl {j : Nat} {r : LexRule} {t c : Str} (hr : RuleAt j r) (h : RuleMatches r t c) :
    ∃ u, '\n' ∉ u ∧ (t ++ c = u ∨ t ++ c = u ++ ['\n']) := by
  rcases match_key hr h with hn | ⟨rfl, rfl⟩
  · cases h with
    | plain => exact ⟨t, hn, .inl (by simp)⟩
    | eol => exact ⟨t, hn, .inr rfl⟩
  · exact ⟨[], by simp, .inr rfl⟩

theorem takes_nl {i : Nat} {r : LexRule} {text rest : Str} (h : Takes lexRules i r text rest) :
    '\n' ∉ text ∨ text = ['\n'] := by
  obtain ⟨hr, c, hm, _⟩ := h
  rcases match_key (ruleAt hr) hm with h | h
  · exact .inl h
  · exact .inr h.1

theorem prefix_nonl {u a rest : Str} (hu : '\n' ∉ u) (h : u <+: a ++ '\n' :: rest) : u.length ≤ a.length := by
  rcases Nat.lt_or_ge a.length u.length with hlt | hge
  · exfalso
    obtain ⟨v, hv⟩ := h
    have h1 : (u ++ v)[a.length]? = some '\n' := by rw [hv]; simp
    rw [List.getElem?_append_left hlt] at h1
    exact hu (List.mem_of_getElem? h1)
  · exact hge

theorem match_in_line {j : Nat} {r : LexRule} {t c a rest : Str} (hr : RuleAt j r) (h : RuleMatches r t c)
    (hp : t ++ c <+: a ++ '\n' :: rest) : t ++ c <+: a ++ ['\n'] := by
  have hlen : (t ++ c).length ≤ (a ++ ['\n']).length := by
    obtain ⟨u, hu, e | e⟩ := match_nl hr h
    · rw [e] at hp ⊢
      have := prefix_nonl hu hp
      simp; omega
    · rw [e] at hp ⊢
      have := prefix_nonl hu ((List.prefix_append u ['\n']).trans hp)
      simp; omega
  exact List.prefix_of_prefix_length_le hp ⟨rest, by simp⟩ hlen

/-- What is taken in front of a line is taken whatever follows the line. -/
theorem lexStep_line {a rest : Str} {t : Option Token} {text r₀ : Str}
    (h : lexStep (a ++ ['\n']) = .step t text r₀) :
    lexStep (a ++ '\n' :: rest) = .step t text (r₀ ++ rest) := by
  obtain ⟨e, hne, i, r, ht, rfl⟩ := lexStep_takes h
  have e' : a ++ '\n' :: rest = text ++ (r₀ ++ rest) := by
    rw [← List.append_assoc, ← e]; simp
  rw [e']
  apply lexStep_of_takes
  obtain ⟨hr, c, hm, hc, hmax⟩ := ht
  refine ⟨hr, c, hm, hc.trans (List.prefix_append _ _), ?_⟩
  intro j r' t' c' hj hm' hp
  rw [← e'] at hp
  have := match_in_line (ruleAt hj) hm' hp
  rw [e] at this
  exact hmax j r' t' c' hj hm' this

/-! ## Scanning line by line -/

/-- `buf` is what is left of line `n`; the scanner is at `p`, and `loc` is the location of the last
text it took. -/
inductive Rest (ls : List Str) : (buf file : Str) → (n : Nat) → Place → Location → Prop
  | start {file : Str} {loc : Location} : Rest ls [] file 0 ⟨1, 0⟩ loc
  | mid {buf file : Str} {n : Nat} {loc : Location} {pre a : Str} (hb : buf ≠ []) (hn : 0 < n)
      (hl : ls[n - 1]? = some (pre ++ buf)) (hp : '\n' ∉ pre) (ha : '\n' ∉ a)
      (h : buf = a ++ ['\n'] ∨ (buf = a ∧ file = [])) : Rest ls buf file n ⟨n, origin n + pre.length⟩ loc
  | done {file : Str} {n : Nat} {a : Str} (hn : 0 < n) (hl : ls[n - 1]? = some (a ++ ['\n'])) :
      Rest ls [] file n ⟨n + 1, 1⟩ ⟨n + 1, 0, n + 1, 0⟩
  | over {n : Nat} {a : Str} {p : Place} {loc : Location} (hn : 0 < n) (hl : ls[n - 1]? = some a)
      (ha : '\n' ∉ a) (h1 : loc.firstLine = n) (h2 : loc.lastLine = n) : Rest ls [] [] n p loc

theorem rest_step {ls : List Str} {buf file text rest : Str} {n : Nat} {p : Place} {loc : Location}
    (h : Rest ls buf file n p loc) (hb : buf ≠ []) (e : buf = text ++ rest)
    (ht : '\n' ∉ text ∨ text = ['\n']) :
    Rest ls rest file n (userAction p text).2 (userAction p text).1 := by
  cases h with
  | start => exact absurd rfl hb
  | done => exact absurd rfl hb
  | over => exact absurd rfl hb
  | @mid _ _ _ _ pre a _ hn hl hpre ha h =>
    rcases ht with ht | rfl
    · have h0 : newlines text = 0 := List.count_eq_zero_of_not_mem ht
      subst e
      have hl' : ls[n - 1]? = some (pre ++ text ++ rest) := by rw [hl]; simp
      by_cases hr : rest = []
      · subst hr
        rcases h with h | ⟨h, hf⟩
        · exfalso
          rw [List.append_nil] at h
          exact ht (h ▸ by simp)
        · subst hf
          rw [List.append_nil] at h hl'
          refine .over hn hl' ?_ ?_ ?_
          · simp [hpre, ht]
          · simp [userAction, h0]
          · simp [userAction, h0]
      · have hu : (userAction ⟨n, origin n + pre.length⟩ text).2 = ⟨n, origin n + (pre ++ text).length⟩ := by
          simp [userAction, h0, Nat.add_assoc]
        rw [hu]
        have hpt : '\n' ∉ pre ++ text := by simp [hpre, ht]
        rcases h with h | ⟨h, hf⟩
        · obtain ⟨r', rfl⟩ : ∃ r', rest = r' ++ ['\n'] := by
            refine ⟨rest.dropLast, ?_⟩
            have h1 : rest.getLast? = some '\n' := by
              have := congrArg List.getLast? h
              rw [List.getLast?_append, List.getLast?_append, List.getLast?_eq_some_getLast hr] at this
              rw [List.getLast?_eq_some_getLast hr]
              simpa using this
            rw [List.getLast?_eq_some_getLast hr, Option.some.injEq] at h1
            rw [← h1, List.dropLast_concat_getLast]
          rw [← List.append_assoc, List.append_cancel_right_eq] at h
          subst h
          simp only [List.mem_append, not_or] at ha
          exact .mid hr hn hl' hpt ha.2 (.inl rfl)
        · subst h
          simp only [List.mem_append, not_or] at ha
          exact .mid hr hn hl' hpt ha.2 (.inr ⟨rfl, hf⟩)
    · have h0 : newlines ['\n'] = 1 := rfl
      rcases h with h | ⟨h, hf⟩
      · have : a = [] ∧ rest = [] := by
          rw [e] at h
          cases a with
          | nil => simpa using h
          | cons x a =>
            simp only [List.cons_append, List.nil_append, List.cons.injEq] at h
            rw [← h.1] at ha
            exact absurd (by simp) ha
        obtain ⟨rfl, rfl⟩ := this
        rw [h] at hl
        have := Rest.done (file := file) hn hl
        simpa [userAction, h0] using this
      · rw [h] at e
        exact absurd (e ▸ by simp) ha

theorem scanLines_spec {ls : List Str} {start : Location} : ∀ (fuel n : Nat) (given : Str) (c : LineCache) (buf file : Str)
    (p : Place) (loc : Location),
    Fed ls n 0 given c file → pending c = [] → Rest ls buf file n p loc → (n = 0 → loc = start) →
    buf.length + 2 * file.length < fuel →
    ∃ ts last fin, scanLines fuel c buf file p loc = some (ts, last, fin) ∧
      Scans lexRules p.line (buf ++ file) (ts.map fun x => (x.1.firstLine, x.2.1)) ∧
      (∀ x ∈ ts, ∃ number pre text post, Stands ls number pre text post x.1 x.2.1 x.2.2) ∧
      EndAt ls start last ∧ KeepsLines fin (ls ++ [[]]) := by
  intro fuel
  induction fuel with
  | zero => intro n given c buf file p loc _ _ _ _ h; omega
  | succ fuel ih =>
    intro n given c buf file p loc hfed hpend hrest hstart hfuel
    cases buf with
    | nil =>
      obtain ⟨got, c', file', n', m', e1, hfed', hgot, hend, hcase⟩ := hfed.input (room := (c.refill file).1.len + 1) (by omega)
      obtain ⟨n₂, m₂, hfed₂, ⟨l, hl⟩, _, hcase₂⟩ := hfed.refill
      have hall : got = pending (c.refill file).1 := by
        rw [hgot, List.take_of_length_le]
        rw [← hfed₂.len]; omega
      have hp' : pending c' = [] := by
        have h1 := hfed₂.given
        have h2 := hfed'.given
        have h3 : file' = (c.refill file).2 := by
          unfold yyInput at e1
          dsimp only at e1
          split at e1
          · split at e1
            · simp only [Res.ok.injEq, Prod.mk.injEq] at e1
              exact e1.2.2.symm
            · cases e1
          · cases e1
        rw [h3, hall, List.append_assoc given, ← h1, List.append_assoc, List.append_assoc, List.append_assoc] at h2
        have h4 := congrArg List.length h2
        simp only [List.length_append] at h4
        exact List.eq_nil_of_length_eq_zero (by omega)
      simp only [scanLines, e1]
      cases hgc : got with
      | nil =>
        obtain ⟨h1, h2, h3⟩ := hend hgc
        have hf : file = [] := by
          have := hfed.given
          rw [hpend, h1] at this
          simpa using this
        refine ⟨[], loc, c', rfl, ?_, by simp, ?_, ?_⟩
        · rw [hf]; exact .nil
        · have hn : n = ls.length := by
            rcases hcase with ⟨_, h, _⟩ | ⟨_, _, h, _⟩ | ⟨h, _⟩
            · exact absurd hf h
            · rw [← h, h2]
            · exact absurd hpend h
          cases hrest with
          | start => exact .inl ⟨List.eq_nil_of_length_eq_zero hn.symm, hstart rfl⟩
          | mid hb => exact absurd rfl hb
          | done hn' hl =>
            subst hn
            exact .inr (.inl ⟨⟨_, by rw [List.getLast?_eq_getElem?]; exact hl⟩, rfl⟩)
          | over hn' hl ha h1 h2 =>
            subst hn
            exact .inr (.inr ⟨⟨_, by rw [List.getLast?_eq_getElem?]; exact hl, ha⟩, h1, h2⟩)
        · have := hfed'.keeps
          rw [h2, h3] at this
          simpa using this
      | cons b bs =>
        have hf : file ≠ [] := by
          rintro rfl
          have h1 := hfed.given
          have h2 := hfed'.given
          rw [hpend] at h1
          simp only [List.append_nil] at h1
          rw [← h1, hgc] at h2
          have := congrArg List.length h2
          simp at this
        rcases hcase with ⟨_, _, rfl, rfl⟩ | ⟨_, h, _⟩ | ⟨h, _⟩
        · have hcat : b :: bs ++ file' = file := by
            have h1 := hfed.given
            have h2 := hfed'.given
            rw [hpend] at h1
            rw [hp', hgc, ← h1] at h2
            simpa using h2
          have hlt : n < ls.length := hfed'.bound
          have hgot' : b :: bs = ls[n] := by
            rw [← hgc, hall]
            have h1 := hfed₂.keeps
            rcases hcase₂ with ⟨_, _, rfl, rfl⟩ | ⟨_, h, _⟩ | ⟨h, _⟩
            · obtain ⟨l', e1, e2⟩ := h1.current (by
                simp only [List.replicate_zero, List.append_nil, ne_eq, List.take_eq_nil_iff]
                rintro (h | h)
                · omega
                · rw [h] at hlt; simp at hlt)
              have hlen := hfed₂.len
              have hsz := hfed₂.size _ e2
              have : (c.refill file).1.sent = 0 := by
                unfold LineCache.refill
                have : c.len - c.sent = 0 := by rw [hfed.len, hpend]; rfl
                rw [if_pos this]
                split <;> rfl
              have : pending (c.refill file).1 = l' := by simp [pending, e2, this]
              rw [this]
              rw [List.replicate_zero, List.append_nil, List.getLast?_eq_getElem?, List.length_take,
                Nat.min_eq_left (by omega), List.getElem?_take_of_lt (by omega)] at e1
              rw [Nat.add_sub_cancel, List.getElem?_eq_getElem hlt] at e1
              exact (Option.some.inj e1).symm
            · exact absurd h hf
            · exact absurd hpend h
          -- the line that was read
          have hline : ∃ a, '\n' ∉ a ∧ (b :: bs = a ++ ['\n'] ∨ (b :: bs = a ∧ file' = [])) := by
            have hl := hfed.lines
            have hl' := hfed'.lines
            rw [List.drop_eq_getElem_cons hlt] at hl
            generalize hx : ls[n] :: ls.drop (n + 1) = d at hl
            cases hl with
            | nil => cases hx
            | last hn hne =>
              simp only [List.cons.injEq] at hx
              refine ⟨b :: bs, by rw [hgot', hx.1]; exact hn, .inr ⟨rfl, ?_⟩⟩
              rw [hx.2] at hl'
              generalize hd : ([] : List Str) = d at hl'
              cases hl' with
              | nil => rfl
              | last => cases hd
              | line => cases hd
            | line hn hr =>
              simp only [List.cons.injEq] at hx
              exact ⟨_, hn, .inl (by rw [hgot', hx.1])⟩
          obtain ⟨a, ha, hab⟩ := hline
          have hat : ls[n + 1 - 1]? = some ([] ++ (b :: bs)) := by
            rw [Nat.add_sub_cancel, List.getElem?_eq_getElem hlt, hgot']; rfl
          have hrest' : Rest ls (b :: bs) file' (n + 1) p loc := by
            have := Rest.mid (loc := loc) (by simp) (by omega) hat (by simp) ha hab
            cases hrest with
            | start => exact this
            | mid hb => exact absurd rfl hb
            | done hn' hl =>
              have ho : origin (n + 1) = 1 := by unfold origin; rw [if_neg (by omega)]
              rw [ho] at this
              exact this
            | over => exact absurd rfl hf
          obtain ⟨ts, last, fin, h1, h2, h3, h4, h5⟩ := ih (n + 1) _ c' (b :: bs) file' p loc hfed' hp' hrest' (by omega) (by
            have := congrArg List.length hcat
            simp only [List.length_append, List.length_cons, List.length_nil] at this hfuel ⊢
            omega)
          rw [hcat] at h2
          exact ⟨ts, last, fin, h1, by simpa using h2, h3, h4, h5⟩
        · exact absurd h hf
        · exact absurd hpend h
    | cons b bs =>
      obtain ⟨t, text, rest, hs⟩ := lexStep_total (s := b :: bs) (by simp)
      obtain ⟨e, hne, i, r, ht, ha⟩ := lexStep_takes hs
      have hs' : lexStep (b :: bs ++ file) = .step t text (rest ++ file) := by
        cases hrest with
        | mid _ _ _ _ hna h =>
          rcases h with h | ⟨h, hf⟩
          · rw [h] at hs ⊢
            have := lexStep_line (rest := file) hs
            simpa using this
          · rw [hf]; simpa using hs
      obtain ⟨e', hne', i', r', ht', ha'⟩ := lexStep_takes hs'
      have hrest' := rest_step hrest (by simp) e (takes_nl ht)
      have hpos : 0 < n := by cases hrest; assumption
      obtain ⟨ts, last, fin, h1, h2, h3, h4, h5⟩ := ih n given c rest file _ _ hfed hpend hrest' (by omega) (by
        have := congrArg List.length e
        have := List.length_pos_iff.2 hne
        simp only [List.length_append, List.length_cons] at *
        omega)
      have hln : (userAction p text).2.line = p.line + text.count '\n' := rfl
      rw [hln] at h2
      simp only [scanLines, hs, h1]
      rw [e']
      cases t with
      | none => exact ⟨ts, last, fin, rfl, .skip ht' hne' ha'.symm h2, h3, h4, h5⟩
      | some t =>
        refine ⟨_, last, fin, rfl, .token ht' hne' ha'.symm h2, ?_, h4, h5⟩
        have hnl := token_nonl ht ha.symm
        have h0 : newlines text = 0 := List.count_eq_zero_of_not_mem hnl
        intro x hx
        rcases List.mem_cons.1 hx with rfl | hx
        · dsimp only
          cases hrest with
          | @mid _ _ _ _ pre _ _ hn hl =>
            rw [e] at hl
            refine ⟨n, pre, text, rest, ⟨hn, by rw [hl]; simp⟩, ⟨hne, i', r', ?_, ha'.symm⟩, ?_, ?_⟩
            · rw [← hfed.lines.flatten] at ht'
              exact ht'
            · simp [userAction, h0]
            · simpa using hfed.keeps
        · exact h3 x hx

/-! ## Showing a line -/

theorem isSpaceC_nat {c : Char} : isSpaceC c = true ↔ c.toNat = 32 ∨ (9 ≤ c.toNat ∧ c.toNat ≤ 13) := by
  have key : ∀ d : Char, c = d ↔ c.toNat = d.toNat := fun d =>
    ⟨fun h => by rw [h], fun h => Char.ext (UInt32.toNat_inj.1 h)⟩
  simp only [isSpaceC, Bool.or_eq_true, beq_iff_eq, key]
  have h1 : ' '.toNat = 32 := rfl
  have h2 : '\t'.toNat = 9 := rfl
  have h3 : '\n'.toNat = 10 := rfl
  have h4 : '\x0b'.toNat = 11 := rfl
  have h5 : '\x0c'.toNat = 12 := rfl
  have h6 : '\r'.toNat = 13 := rfl
  omega

theorem visible_iff {c : Char} : Visible c ↔ isPrintC c = true ∨ isSpaceC c = true := by
  rw [isSpaceC_nat, isPrintC, decide_eq_true_iff]
  unfold Visible
  omega

/-- The tabs among some characters. -/
def tabs (s : Str) : Nat := s.count '\t'

theorem tabs_append {a b : Str} : tabs (a ++ b) = tabs a + tabs b := List.count_append

theorem tabs_le {s : Str} : tabs s ≤ s.length := List.count_le_length

theorem expand_length {s : Str} : (expand s).length = s.length + 3 * tabs s := by
  induction s with
  | nil => rfl
  | cons c s ih =>
    simp only [expand, tabs] at ih
    simp only [expand, tabs, List.flatMap_cons, List.length_append, ih, List.count_cons, List.length_cons]
    by_cases h : c = '\t'
    · simp [h]; omega
    · simp [h]; omega

theorem column_eq {line : Str} {n : Nat} : column line n = n + 3 * tabs (line.take n) := by
  simp only [column, expand_length, List.length_take]
  omega

theorem printLine_whole {color : Bool} {first last : Nat} {s : Str} (h : Showable s) : ∀ (pos b i : Nat),
    printLine color first last pos s b i =
      .whole (expand s) (b + tabs (s.take (first - pos))) (i + tabs ((s.take (last - pos)).drop (first - pos))) := by
  induction s with
  | nil => intro pos b i; simp [printLine, expand, tabs]
  | cons c s ih =>
    have ih := ih (fun x hx => h x (List.mem_cons_of_mem _ hx))
    intro pos b i
    rw [printLine]
    by_cases ht : c = '\t'
    · subst ht
      rw [if_pos rfl, ih]
      dsimp only
      have he : expand ('\t' :: s) = cs!"    " ++ expand s := by simp [expand]
      rw [he]
      by_cases h1 : pos < first
      · rw [if_pos h1, if_pos h1]
        obtain ⟨k, hk⟩ : ∃ k, first - pos = k + 1 := ⟨first - pos - 1, by omega⟩
        rw [hk, show first - (pos + 1) = k by omega]
        congr 1
        · simp [tabs]; omega
        · rcases Nat.eq_zero_or_pos (last - pos) with h2 | h2
          · rw [h2, show last - (pos + 1) = 0 by omega]; simp
          · obtain ⟨m, hm⟩ : ∃ m, last - pos = m + 1 := ⟨last - pos - 1, by omega⟩
            rw [hm, show last - (pos + 1) = m by omega]; simp
      · rw [if_neg h1, if_neg h1]
        rw [show first - pos = 0 by omega, show first - (pos + 1) = 0 by omega]
        congr 1
        by_cases h2 : pos < last
        · rw [if_pos h2]
          obtain ⟨m, hm⟩ : ∃ m, last - pos = m + 1 := ⟨last - pos - 1, by omega⟩
          rw [hm, show last - (pos + 1) = m by omega]
          simp [tabs]; omega
        · rw [if_neg h2, show last - pos = 0 by omega, show last - (pos + 1) = 0 by omega]
          simp
    · rw [if_neg ht, if_neg, ih]
      · dsimp only
        have he : expand (c :: s) = c :: expand s := by simp [expand, ht]
        rw [he]
        have hc : ∀ n, tabs ((c :: s).take n) = tabs (s.take (n - 1)) := by
          intro n
          cases n with
          | zero => simp
          | succ n => simp [tabs, ht]
        have hd : ∀ m n, tabs (((c :: s).take m).drop n) = tabs ((s.take (m - 1)).drop (n - 1)) := by
          intro m n
          cases m with
          | zero => simp
          | succ m =>
            cases n with
            | zero => simp [tabs, ht]
            | succ n => simp
        rw [hc, hd, Nat.sub_sub, Nat.sub_sub]
      · rcases visible_iff.1 (h c List.mem_cons_self) with h | h <;> simp [h]

theorem tabs_take_drop {s : Str} {m n : Nat} (h : n ≤ m) :
    tabs (s.take m) = tabs (s.take n) + tabs ((s.take m).drop n) := by
  have := List.take_append_drop n (s.take m)
  rw [List.take_take, Nat.min_eq_left h] at this
  rw [← tabs_append, this]

theorem tabs_take_succ {s : Str} {n : Nat} (h : s[n]? ≠ some '\t') : tabs (s.take (n + 1)) = tabs (s.take n) := by
  rw [List.take_add_one, tabs_append]
  cases hx : s[n]? with
  | none => simp [tabs]
  | some c =>
    have : c ≠ '\t' := fun e => h (by rw [hx, e])
    simp [tabs, this]

/-- The line with the marker stands below the characters. -/
theorem hintLine_eq {color top : Bool} {line : Str} {first last : Nat} (hf : 1 ≤ first)
    (ht : line[first - 1]? ≠ some '\t') :
    hintLine color top first last (tabs (line.take first)) (tabs ((line.take last).drop first)) =
      cs!"\n      | " ++ List.replicate (column line (first - 1)) ' ' ++ colorError color ++
        (if top then '^' else '~') ::
          List.replicate (column line last - column line (first - 1) - 1) '~' ++ colorReset color ++ cs!"\n" := by
  obtain ⟨k, rfl⟩ : ∃ k, first = k + 1 := ⟨first - 1, by omega⟩
  rw [Nat.add_sub_cancel] at ht ⊢
  have h1 := tabs_take_succ ht
  have h2 : tabs (line.take k) ≤ k := Nat.le_trans tabs_le (by simp; omega)
  rw [h1]
  unfold hintLine
  have e1 : List.replicate (4 * tabs (line.take k)) ' ' ++ List.replicate (k + 1 - (tabs (line.take k) + 1)) ' ' =
      List.replicate (column line k) ' ' := by
    rw [List.replicate_append_replicate, column_eq]; congr 1; omega
  have e2 : (if last > k + 1 then List.replicate (last - (k + 1)) '~' ++
        List.replicate (3 * tabs ((line.take last).drop (k + 1))) '~' else []) =
      List.replicate (column line last - column line k - 1) '~' := by
    rw [column_eq, column_eq]
    by_cases h : last > k + 1
    · rw [if_pos h, List.replicate_append_replicate]
      have := tabs_take_drop (s := line) (show k + 1 ≤ last by omega)
      congr 1; omega
    · rw [if_neg h]
      have : tabs (line.take last) ≤ tabs (line.take (k + 1)) := by
        rw [tabs_take_drop (s := line) (show last ≤ k + 1 by omega)]; omega
      rw [show last + 3 * tabs (line.take last) - (k + 3 * tabs (line.take k)) - 1 = 0 by omega]
      rfl
  rw [e2]
  cases top <;> simp [← e1, List.append_assoc]

theorem leadingSpaces_stop {s : Str} : s[leadingSpaces s]? ≠ some '\t' := by
  unfold leadingSpaces
  induction s with
  | nil => simp
  | cons c s ih =>
    rw [List.takeWhile_cons]
    split
    · simpa using ih
    · rename_i h
      simp at h ⊢
      exact h.2

theorem usub_eq {a b : Nat} (h : b ≤ a) (ha : a < 2 ^ 32) : usub a b = a - b := by
  unfold usub; omega

theorem showLines_eq {color : Bool} {c : LineCache} {seen : List Str} {loc : Location} {total : Nat} {shortened : Bool}
    (hc : KeepsLines c seen) (ht : total ≤ linesToCache) (hts : total ≤ seen.length) (htl : total ≤ loc.lastLine)
    (hl : loc.lastLine < 2 ^ 32)
    (hs : ∀ i, loc.lastLine < i + total → i ≤ loc.lastLine → Showable (shownLine seen loc.lastLine i))
    (hf : if shortened then loc.firstLine + total ≤ loc.lastLine else
      loc.firstLine + total = loc.lastLine + 1 ∧ 1 ≤ loc.firstColumn ∧
        (shownLine seen loc.lastLine loc.firstLine)[loc.firstColumn - 1]? ≠ some '\t') :
    ∀ k, k ≤ total → showLines color c loc total shortened k =
      .ok (pictures color loc (shownLine seen loc.lastLine) (if k = total then '^' else '~')
        (List.range' (loc.lastLine + 1 - k) k)) := by
  intro k
  induction k with
  | zero => intro _; rfl
  | succ k ih =>
    intro hk
    obtain ⟨l, e1, e2⟩ := hc.kept (k + 1) (by omega) (by omega) (by omega)
    have hline : shownLine seen loc.lastLine (loc.lastLine - k) = trimRight l := by
      unfold shownLine
      rw [List.getD_eq_getElem?_getD,
        show loc.lastLine - k + seen.length - (loc.lastLine + 1) = seen.length - (k + 1) by omega, e1]
      rfl
    have hsh := hs (loc.lastLine - k) (by omega) (by omega)
    rw [showLines, e2]
    dsimp only
    rw [usub_eq (by omega) hl, List.range'_succ, show loc.lastLine + 1 - (k + 1) = loc.lastLine - k by omega,
      show loc.lastLine - k + 1 = loc.lastLine + 1 - k by omega, pictures, ih (by omega), if_neg (by omega : ¬ k = total)]
    rw [← hline]
    generalize hL : shownLine seen loc.lastLine (loc.lastLine - k) = L at hsh ⊢
    rw [printLine_whole hsh]
    have hfirst : (if k + 1 = total ∧ shortened = false then loc.firstColumn else 1 + leadingSpaces L) =
        (if loc.lastLine - k = loc.firstLine then loc.firstColumn else 1 + leadingSpaces L) := by
      cases shortened with
      | true =>
        simp only [if_true] at hf
        rw [if_neg (by simp), if_neg (by omega)]
      | false =>
        rw [if_neg (by simp)] at hf
        by_cases hkt : k + 1 = total
        · rw [if_pos ⟨hkt, rfl⟩, if_pos (by omega)]
        · rw [if_neg (fun h => hkt h.1), if_neg (by omega)]
    have hlast : (if k + 1 = 1 then loc.lastColumn else L.length) =
        (if loc.lastLine - k = loc.lastLine then loc.lastColumn else L.length) := by
      by_cases h : k = 0
      · rw [if_pos (by omega), if_pos (by omega)]
      · rw [if_neg (by omega), if_neg (by omega)]
    rw [hfirst, hlast]
    dsimp only
    generalize hF : (if loc.lastLine - k = loc.firstLine then loc.firstColumn else 1 + leadingSpaces L) = F
    generalize (if loc.lastLine - k = loc.lastLine then loc.lastColumn else L.length) = E
    have hF1 : 1 ≤ F ∧ L[F - 1]? ≠ some '\t' := by
      rw [← hF]
      split
      · rename_i h
        cases shortened with
        | true => simp only [if_true] at hf; omega
        | false =>
          rw [if_neg (by simp)] at hf
          rw [← hL, h]
          exact hf.2
      · refine ⟨by omega, ?_⟩
        rw [Nat.add_sub_cancel_left]
        exact leadingSpaces_stop
    rw [Nat.zero_add, Nat.zero_add, Nat.sub_zero, Nat.sub_zero, hintLine_eq hF1.1 hF1.2]
    show Res.ok _ = _
    simp only [marked, picture]
    by_cases hkt : k + 1 = total
    · simp [hkt, List.append_assoc]
    · simp [hkt, List.append_assoc]

/-- What `yyerror` prints. -/
theorem yyerror_eq {color : Bool} {filename msg : Str} {c : LineCache} {seen : List Str} {loc : Location}
    (hc : KeepsLines c seen) (h1 : 1 ≤ loc.firstLine) (h2 : loc.firstLine ≤ loc.lastLine) (hl : loc.lastLine < 2 ^ 32)
    (hsl : loc.lastLine ≤ seen.length)
    (hs : ∀ i, loc.firstLine ≤ i → loc.lastLine < i + linesToCache → i ≤ loc.lastLine →
      Showable (shownLine seen loc.lastLine i))
    (hf : 1 ≤ loc.firstColumn ∧ (shownLine seen loc.lastLine loc.firstLine)[loc.firstColumn - 1]? ≠ some '\t') :
    yyerror color filename c loc msg = .ok (formatFinding color ⟨filename, loc.firstLine, ⟨'F', 1, msg⟩⟩ ++
      (if loc.lastLine - loc.firstLine < linesToCache then
        pictures color loc (shownLine seen loc.lastLine) '^' (List.range' loc.firstLine (loc.lastLine + 1 - loc.firstLine))
      else
        padLeft ' ' 5 (natToStr (loc.lastLine - linesToCache)) ++ cs!" |  ...  [truncated]\n" ++
        pictures color loc (shownLine seen loc.lastLine) '^'
          (List.range' (loc.lastLine + 1 - linesToCache) linesToCache))) := by
  have hn : (usub loc.lastLine loc.firstLine + 1) % 2 ^ 32 = loc.lastLine + 1 - loc.firstLine := by
    rw [usub_eq h2 hl]; omega
  unfold yyerror
  dsimp only
  rw [hn]
  by_cases h : loc.lastLine - loc.firstLine < linesToCache
  · rw [if_pos h, if_neg (by omega)]
    have := showLines_eq (color := color) (shortened := false) (total := loc.lastLine + 1 - loc.firstLine) hc (by omega) (by omega)
      (by omega) hl (fun i h3 h4 => hs i (by omega) (by omega) h4) (by
        rw [if_neg (by simp)]
        exact ⟨by omega, hf⟩) _ (Nat.le_refl _)
    rw [this, if_pos rfl]
    rw [show loc.lastLine + 1 - (loc.lastLine + 1 - loc.firstLine) = loc.firstLine by omega]
    rfl
  · rw [if_neg h, if_pos (by omega)]
    simp only [linesToCache] at h hs ⊢
    have := showLines_eq (color := color) (shortened := true) (total := 5) hc (by decide) (by omega)
      (by omega) hl (fun i h3 h4 => hs i (by omega) (by omega) h4) (by
        rw [if_pos rfl]; omega) _ (Nat.le_refl _)
    rw [this, if_pos rfl, usub_eq (by omega) hl]
    show Res.ok _ = _
    simp [List.append_assoc]

/-! ## A single line -/

theorem trimRight_cons {c : Char} {s : Str} (h : isSpaceC c = false) : trimRight (c :: s) = c :: trimRight s := by
  unfold trimRight
  rw [List.reverse_cons, List.dropWhile_append]
  split
  · rename_i h'
    rw [List.isEmpty_iff] at h'
    simp [h, h']
  · simp

theorem trimRight_keeps {a s : Str} {c : Char} (h : isSpaceC c = false) :
    trimRight (a ++ c :: s) = a ++ c :: trimRight s := by
  unfold trimRight
  rw [List.reverse_append, List.reverse_cons, List.append_assoc, List.dropWhile_append]
  split
  · rename_i h'
    rw [List.isEmpty_iff] at h'
    simp [h, h']
  · simp

theorem trimRight_prefix (s : Str) : trimRight s <+: s := by
  unfold trimRight
  obtain ⟨t, ht⟩ := List.dropWhile_suffix (l := s.reverse) isSpaceC
  refine ⟨t.reverse, ?_⟩
  rw [← List.reverse_append, ht, List.reverse_reverse]

/-- The marker when its column is counted from 0. -/
theorem hintLine_zero {color top : Bool} {line : Str} {k len : Nat} (hl : 0 < len)
    (h1 : line[k]? ≠ some '\t') (h2 : line[k + len - 1]? ≠ some '\t') :
    hintLine color top k (k + len - 1) (tabs (line.take k)) (tabs ((line.take (k + len - 1)).drop k)) =
      cs!"\n      | " ++ List.replicate (if tabs (line.take k) = k then column line k else column line k - 1) ' ' ++
        colorError color ++ (if top then '^' else '~') ::
          List.replicate (column line (k + len) - column line k - 1) '~' ++ colorReset color ++ cs!"\n" := by
  have ht : tabs (line.take k) ≤ k := Nat.le_trans tabs_le (by simp; omega)
  have h3 : tabs (line.take (k + len)) = tabs (line.take (k + len - 1)) := by
    have := tabs_take_succ h2
    rwa [show k + len - 1 + 1 = k + len by omega] at this
  have h4 := tabs_take_drop (s := line) (show k ≤ k + len - 1 by omega)
  unfold hintLine
  have e1 : List.replicate (4 * tabs (line.take k)) ' ' ++ List.replicate (k - (tabs (line.take k) + 1)) ' ' =
      List.replicate (if tabs (line.take k) = k then column line k else column line k - 1) ' ' := by
    rw [List.replicate_append_replicate, column_eq]
    congr 1
    split <;> omega
  have e2 : (if k + len - 1 > k then List.replicate (k + len - 1 - k) '~' ++
        List.replicate (3 * tabs ((line.take (k + len - 1)).drop k)) '~' else []) =
      List.replicate (column line (k + len) - column line k - 1) '~' := by
    rw [column_eq, column_eq]
    by_cases h : k + len - 1 > k
    · rw [if_pos h, List.replicate_append_replicate]
      congr 1; omega
    · rw [if_neg h]
      have : len = 1 := by omega
      subst this
      rw [tabs_take_succ h1, show k + 1 + 3 * tabs (line.take k) - (k + 3 * tabs (line.take k)) - 1 = 0 by omega]
      rfl
  rw [e2, ← e1]
  cases top <;> simp [List.append_assoc]

/-- A location within one line, the current one. -/
theorem yyerror_single {color : Bool} {filename msg : Str} {c : LineCache} {seen : List Str} {l : Str} {n first last : Nat}
    (hc : KeepsLines c seen) (hl : seen.getLast? = some l) (hn : n < 2 ^ 32) :
    yyerror color filename c ⟨n, first, n, last⟩ msg =
      .ok (formatFinding color ⟨filename, n, ⟨'F', 1, msg⟩⟩ ++
        (padLeft ' ' 5 (natToStr n) ++ cs!" |" ++ (if trimRight l = [] then [] else cs!" ") ++
          match printLine color first last 0 (trimRight l) 0 0 with
          | .stopped t => t
          | .whole t before inside => t ++ hintLine color true first last before inside)) := by
  have hne : seen ≠ [] := by rintro rfl; cases hl
  obtain ⟨l', e1, e2⟩ := hc.current hne
  rw [hl] at e1
  cases e1
  have hi : c.index < 5 := by rw [hc.index]; exact Nat.mod_lt _ (by decide)
  have hcur : c.lines[(linesToCache + c.index - (0 + 1) + 1) % linesToCache]? = some (some l) := by
    rw [← e2]; congr 1; simp only [linesToCache]; omega
  unfold yyerror
  dsimp only
  rw [usub_eq (Nat.le_refl _) hn, Nat.sub_self]
  rw [show (0 + 1) % 2 ^ 32 = 1 from rfl, if_neg (by decide)]
  rw [showLines, hcur]
  dsimp only
  rw [if_pos ⟨rfl, rfl⟩, if_pos rfl, usub_eq (Nat.zero_le _) hn, Nat.sub_zero]
  cases printLine color first last 0 (trimRight l) 0 0 with
  | stopped t => rfl
  | whole t b i =>
    show Res.ok _ = _
    simp [List.append_assoc]

theorem printLine_stopped {color : Bool} {first last : Nat} {a b : Str} {x : Char} (ha : Showable a)
    (hx : isPrintC x = false ∧ isSpaceC x = false) : ∀ (pos before inside : Nat),
    printLine color first last pos (a ++ x :: b) before inside =
      .stopped (expand a ++ (colorError color ++ cs!"!" ++ colorReset color ++ cs!"\n" ++ colorWarning color ++
        cs!"Warning" ++ colorReset color ++
        cs!": Line in question contains unprintable character at position " ++ natToStr (pos + a.length + 1) ++
        cs!": 0x" ++ hexOfChar x ++ cs!"\n")) := by
  induction a with
  | nil =>
    intro pos before inside
    have hxt : x ≠ '\t' := by rintro rfl; exact absurd hx.2 (by decide)
    rw [List.nil_append, printLine, if_neg hxt, if_pos (by simp [hx])]
    rfl
  | cons c a ih =>
    have ih := ih (fun y hy => ha y (List.mem_cons_of_mem _ hy))
    intro pos before inside
    rw [List.cons_append, printLine]
    by_cases ht : c = '\t'
    · rw [if_pos ht, ih]
      have he : expand (c :: a) = cs!"    " ++ expand a := by simp [expand, ht]
      rw [he, List.length_cons, show pos + 1 + a.length + 1 = pos + (a.length + 1) + 1 by omega]
      simp only [List.append_assoc]
    · rw [if_neg ht, if_neg, ih]
      · have he : expand (c :: a) = c :: expand a := by simp [expand, ht]
        rw [he, List.length_cons, show pos + 1 + a.length + 1 = pos + (a.length + 1) + 1 by omega]
        rfl
      · rcases visible_iff.1 (ha c List.mem_cons_self) with h | h <;> simp [h]

end Selint
