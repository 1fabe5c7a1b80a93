import Verif.Lemmas.LalrErrors
import Verif.Props.ParserEnds
/-!
# C97: a syntax error is found at the first token that no file goes on with
-/

namespace Selint
open Spec Lr

/-- **C97 (one place).** A text has at most one such place. -/
theorem C97_unique {ts : List Term} {n m : Nat} (h : ErrorAfter n ts) (h' : ErrorAfter m ts) :
    n = m := by
  have key : ∀ {n m : Nat}, ErrorAfter n ts → ErrorAfter m ts → ¬ n < m := by
    intro n m h h' hlt
    obtain ⟨more, hs⟩ := h'.good
    have hm := h'.inside
    refine h.bad ((ts.take m).drop n ++ more) ?_ ?_
    · rw [List.drop_take, List.head?_append, List.head?_take, if_neg (by omega)]
      cases hd : ts.drop n with
      | nil =>
        have := congrArg List.length hd
        simp at this
        omega
      | cons x xs => rfl
    · rw [← List.append_assoc]
      have e : ts.take n ++ (ts.take m).drop n = ts.take m := by
        have h₁ := List.take_append_drop n (ts.take m)
        rwa [List.take_take, Nat.min_eq_left (by omega)] at h₁
      rwa [e]
  have h₁ := key h h'
  have h₂ := key h' h
  omega

/-- **C97 (some place).** Whatever is not a file has one. -/
theorem C97_exists {ts : List Term} : (∃ n, ErrorAfter n ts) ↔ ¬ Sentence ts := by
  constructor
  · rintro ⟨n, h⟩ hs
    exact h.bad (ts.drop n) rfl (by rwa [List.take_append_drop])
  · intro hs
    have key : ∀ k, k ≤ ts.length → (∃ more, Sentence (ts.take (ts.length - k) ++ more)) →
        ∃ n, ErrorAfter n ts := by
      intro k
      induction k with
      | zero =>
        rintro - ⟨more, hm⟩
        refine ⟨ts.length, Nat.le_refl _, ⟨more, hm⟩, fun more' he => ?_⟩
        rw [List.drop_length, List.head?_nil, List.head?_eq_none_iff] at he
        rw [he, List.take_length, List.append_nil]
        exact hs
      | succ k ih =>
        intro hk hm
        by_cases hb : ∃ more, more.head? = (ts.drop (ts.length - (k + 1))).head? ∧
            Sentence (ts.take (ts.length - (k + 1)) ++ more)
        · obtain ⟨more, he, hmore⟩ := hb
          have hlt : ts.length - (k + 1) < ts.length := by omega
          rw [List.drop_eq_getElem_cons hlt, List.head?_cons] at he
          cases more with
          | nil => cases he
          | cons x more =>
            cases he
            refine ih (by omega) ⟨more, ?_⟩
            have e : ts.length - k = (ts.length - (k + 1)) + 1 := by omega
            rw [e, List.take_add_one, List.getElem?_eq_getElem hlt, List.append_assoc]
            exact hmore
        · exact ⟨_, by omega, hm, fun more he hmore => hb ⟨more, he, hmore⟩⟩
    refine key ts.length (Nat.le_refl _) ?_
    rw [Nat.sub_self]
    exact yields_some [.n .selinuxFile]

/-- **C97 (place).** When the tables have no entry for the token that was read, that token is the one
after the longest beginning of the text with which some file of the grammar begins; it is still the
next one, with its own line, and everything after it is still to be read. -/
theorem C97_place {m₀ : Mem} {expected : PlainFlavor} {mod : Str} {maps : Maps} {ts : Located}
    {d : Drive} (h : DriveReaches (Drive.start m₀ expected mod maps ts) d) {e : Entry} {s : Nat}
    {rest : List Nat} (he : d.l.c.look = some e) (hst : d.states = s :: rest)
    (ha : lalrAction s e.sym.code = none) :
    ∃ n, ErrorAfter n (termsOf ts) ∧ d.input = ts.drop (n + 1) ∧
      ∀ t, ts[n]? = some t → d.l.look = t.1 ∧ e.sym = .t (term t.2).1 := by
  obtain ⟨pre, look, stk, segs, hr⟩ := Reads.reaches h
  have hall := hr.all
  refine ⟨pre.length, hr.errorAfter he hst ha, ?_, ?_⟩
  · have hl := hr.looks
    simp only [Drive.Looks, he] at hl
    rcases hl with ⟨rfl, -, hi⟩ | ⟨t, rfl, -⟩
    · rw [hi, hall, hi]
      simp
    · rw [hall, ← List.drop_drop, List.drop_left' rfl]
      rfl
  · intro t ht
    have hl := hr.looks
    simp only [Drive.Looks, he] at hl
    rcases hl with ⟨rfl, -, hi⟩ | ⟨t', rfl, hs⟩
    · rw [hall, hi] at ht
      simp at ht
    · rw [hall, List.getElem?_append_right (Nat.le_refl _), Nat.sub_self] at ht
      cases ht
      exact ⟨rfl, hs⟩

/-- **C97 (files).** In a file of the grammar there is no syntax error, whatever the actions may
do. -/
theorem C97_sentences {m₀ : Mem} {expected : PlainFlavor} {mod : Str} {maps : Maps} {ts : Located}
    (hts : Sentence (termsOf ts)) {d : Drive}
    (h : DriveReaches (Drive.start m₀ expected mod maps ts) d) {e : Entry} {s : Nat}
    {rest : List Nat} (he : d.l.c.look = some e) (hst : d.states = s :: rest) :
    lalrAction s e.sym.code ≠ none := fun ha => by
  obtain ⟨n, hn, -⟩ := C97_place h he hst ha
  exact C97_exists.1 ⟨n, hn⟩ hts

/-- **C97 (accepted).** What `yyparse` accepts is a file of the grammar. -/
theorem C97_accepted {m₀ : Mem} {expected : PlainFlavor} {mod : Str} {maps : Maps} {ts : Located}
    {d : Drive} (h : DriveReaches (Drive.start m₀ expected mod maps ts) d)
    (hs : d.step = .ok .accept) : Sentence (termsOf ts) := by
  obtain ⟨pre, look, stk, segs, hr⟩ := Reads.reaches h
  have hmake : ∀ {mv states input}, d.make mv states input ≠ .ok .accept := by
    intro mv states input hm
    simp only [Drive.make] at hm
    split at hm <;> cases hm
  simp only [Drive.step] at hs
  split at hs
  · split at hs
    · exact absurd hs hmake
    · exact absurd hs hmake
  · rename_i e hlook
    split at hs
    · cases hs
    · rename_i s rest hst
      split at hs
      · cases hs
      · rename_i ha
        have hf : s = lalrFinal ∧ e.sym.code = Term.code .eof := by
          simp only [lalrAction] at ha
          split at ha
          · rename_i hc
            simpa using hc
          · simp only [Option.bind_eq_some_iff] at ha
            obtain ⟨row, hrow, ha⟩ := ha
            split at ha
            · cases ha
            · split at ha
              · cases ha
              · simp only [Option.map_eq_some_iff] at ha
                obtain ⟨_, _, ha⟩ := ha
                cases ha
        have htop := hr.top hst
        rw [hf.1] at htop
        have hfin := hr.linked.final htop
        have hl := hr.looks
        simp only [Drive.Looks, hlook] at hl
        have hy := hr.yields
        rw [hfin] at hy
        rcases hl with ⟨rfl, -, hi⟩ | ⟨t, rfl, hs'⟩
        · rw [hr.all, hi, List.append_nil, List.append_nil]
          exact hy
        · have := hf.2
          rw [hs'] at this
          have := (eofCode_iff (t := some t)).1 this
          cases this
      · exact absurd hs hmake
      · split at hs
        · cases hs
        · simp only [Drive.reduceBy] at hs
          split at hs
          · cases hs
          · split at hs
            · cases hs
            · exact absurd hs hmake

/-- **C97.** A text that is not a file of the grammar is rejected where it stops being the beginning
of one; unless an action gives up, or something undefined happens, before `yyparse` gets there. -/
theorem C97_reported {m₀ : Mem} {expected : PlainFlavor} {mod : Str} {maps : Maps} {ts : Located}
    {n : Nat} (hn : ErrorAfter n (termsOf ts)) :
    ∃ d, DriveReaches (Drive.start m₀ expected mod maps ts) d ∧
      ((d.step = .ok .reject ∧ d.input = ts.drop (n + 1) ∧
        ∃ e, d.l.c.look = some e ∧ ∀ t, ts[n]? = some t → d.l.look = t.1 ∧ e.sym = .t (term t.2).1) ∨
      (∃ r l, d.l.step (.reduce r) = some (.ok (.error l))) ∨ d.step = .ub) := by
  obtain ⟨k, d, hr, -, hend⟩ := C96_ends m₀ expected mod maps ts
  have hr := DriveRounds.reaches hr
  refine ⟨d, hr, ?_⟩
  cases hs : d.step with
  | ub => exact .inr (.inr rfl)
  | ok x =>
    cases x with
    | go d' => exact absurd hs (hend d')
    | accept => exact absurd (C97_accepted hr hs) (C97_exists.1 ⟨n, hn⟩)
    | reject =>
      rcases C96_errors hr hs with ⟨e, s, rest, he, hst, ha⟩ | h
      · obtain ⟨m, hm, hin, hline⟩ := C97_place hr he hst ha
        have := C97_unique hn hm
        subst this
        exact .inl ⟨rfl, hin, e, he, hline⟩
      · exact .inr (.inl h)

/-! ### C97 is about something -/

/-- A number of rounds. -/
def driveTo : Nat → Drive → Drive
  | 0, d => d
  | n + 1, d =>
    match d.step with
    | .ok (.go d') => driveTo n d'
    | _ => d

theorem driveTo_reaches : ∀ (n : Nat) {d₀ d : Drive}, DriveReaches d₀ d → DriveReaches d₀ (driveTo n d)
  | 0, _, _, h => h
  | n + 1, d₀, d, h => by
    simp only [driveTo]
    split
    · rename_i d' hs
      exact driveTo_reaches n (h.step hs)
    · exact h

/-- A require block with a declaration that lacks its semicolon. -/
def brokenText : Str := cs!"policy_module(foo, 1.0)\nrequire {\n\ttype a_t\n}\n"

/-- The tables have nothing to do with the closing brace; it is on line 4. -/
example :
    let d := driveTo 200 (Drive.start ⟨fun _ => none, 0⟩ .teFile cs!"m" {} ((lexFile brokenText).getD []))
    (match d.l.c.look, d.states with
    | some e, s :: _ => decide (lalrAction s e.sym.code = none) && decide (e.sym = .t (.p .closeCurly))
    | _, _ => false) = true ∧ d.l.look = 4 ∧ d.input = [] := by
  with_unfolding_all exact ⟨rfl, rfl, rfl⟩

end Selint
