import Verif.Props.ParserStack
/-!
# C101: texts of too many words

`arbitrary_m4_string: m4_string_elem arbitrary_m4_string` (parse.y:658-664) is right recursive, so the
stack holds all words of a warning.
-/

namespace Selint
open Lr Spec

/-- parse.y:666-686: what a warning may consist of. -/
def wordTerms : List Term :=
  [.string, .p .openParen, .p .closeParen, .p .openCurly, .p .closeCurly, .p .comma, .p .period,
    .p .colon, .p .semicolon, .p .dash]

/-- The states in which a word may follow: after the quote of a warning and after a word. -/
def wordTops : List Nat := [314, 403]

/-- In these states each word is shifted, and then it is reduced if another word follows. -/
theorem word_action : ∀ s ∈ wordTops, ∀ w ∈ wordTerms, ∃ x, lalrAction s w.code = some (.shift x) ∧
    lalrGoto s (Nt.code .m4StringElem) = some 403 ∧ ∀ w' ∈ wordTerms, ∃ p r, lalrAction x w'.code = some (.reduce p) ∧
      rules[p]? = some r ∧ r.lhs = .m4StringElem ∧ r.rhs.length = 1 := by
  have key : (wordTops.all fun s => wordTerms.all fun w =>
      match lalrAction s w.code with
      | some (.shift x) => lalrGoto s (Nt.code .m4StringElem) == some 403 && wordTerms.all fun w' =>
        match lalrAction x w'.code with
        | some (.reduce p) =>
          match rules[p]? with
          | some r => decide (r.lhs = .m4StringElem) && r.rhs.length == 1
          | none => false
        | _ => false
      | _ => false) = true := by decide +kernel
  intro s hs w hw
  have h := List.all_eq_true.1 (List.all_eq_true.1 key s hs) w hw
  split at h
  · rename_i x hx
    rw [Bool.and_eq_true] at h
    refine ⟨x, hx, by simpa using h.1, fun w' hw' => ?_⟩
    have h' := List.all_eq_true.1 h.2 w' hw'
    split at h'
    · rename_i p hp
      split at h'
      · rename_i r hr
        rw [Bool.and_eq_true] at h'
        exact ⟨p, r, hp, hr, by simpa using h'.1, by simpa using h'.2⟩
      · cases h'
    · cases h'
  · cases h

theorem Lr.Drive.stepWithin_eq {limit : Nat} {d d' : Drive} (h : d.stepWithin limit = .ok (.go d')) :
    d.step = .ok (.go d') ∧ d'.states.length < limit := by
  simp only [Drive.stepWithin] at h
  split at h
  · cases h
  · cases h
  · cases h
  · rename_i e he
    split at h
    · cases h
    · cases h
      exact ⟨he, by omega⟩

/-- On the way to where a file is accepted there is always a next step, within the limit as well. -/
theorem Spec.StackReaches.forced {limit : Nat} {d e : Drive} (h : StackReaches limit d e)
    (he : e.step = .ok .accept) (hd : d.step ≠ .ok .accept) :
    ∃ d', d.step = .ok (.go d') ∧ d'.states.length < limit ∧ StackReaches limit d' e := by
  have key : ∀ {e : Drive}, StackReaches limit d e → e = d ∨
      ∃ d', d.step = .ok (.go d') ∧ d'.states.length < limit ∧ StackReaches limit d' e := by
    intro e h
    induction h with
    | refl => exact .inl rfl
    | @step e e' _ hs ih =>
      rcases ih with rfl | ⟨d', hd', hl, h'⟩
      · exact .inr ⟨e', (Drive.stepWithin_eq hs).1, (Drive.stepWithin_eq hs).2, .refl⟩
      · exact .inr ⟨d', hd', hl, .step h' hs⟩
  rcases key h with rfl | h
  · exact absurd he hd
  · exact h

theorem Lr.Drive.make_accept {d : Drive} {mv : LinedMove} {states : List Nat} {input : Located} :
    d.make mv states input ≠ .ok .accept := by
  intro h
  simp only [Drive.make] at h
  split at h <;> cases h

theorem readToken_sym (c : Config) (t : Token) :
    ∃ v, (readToken c (some t)).look = some ⟨.t (term t).1, v⟩ := by
  simp only [readToken]
  split
  · rename_i h; exact ⟨_, by rw [h]⟩
  · rename_i h; exact ⟨_, by rw [h]⟩

/-- A token that is shifted. -/
theorem Spec.StackReaches.shifts {limit : Nat} {d e : Drive} {s x : Nat} {st : List Nat} {w : Term} {y : Entry}
    (h : StackReaches limit d e) (he : e.step = .ok .accept) (hst : d.states = s :: st) (hy : d.l.c.look = some y)
    (hys : y.sym = .t w) (ha : lalrAction s w.code = some (.shift x)) :
    ∃ d', StackReaches limit d' e ∧ d'.states = x :: s :: st ∧ d'.l.c.look = none ∧ d'.input = d.input ∧
      d'.states.length < limit := by
  have hstep : d.step = d.make .shift (x :: d.states) d.input := by
    simp only [Drive.step, hy, hst, hys, Sym.code, ha]
  obtain ⟨d₁, h₁, hl, hd₁⟩ := h.forced he (by rw [hstep]; exact Drive.make_accept)
  rw [hstep] at h₁
  obtain ⟨l₁, hl₁, rfl⟩ := Drive.make_go h₁
  obtain ⟨e₁, -, hc₁⟩ := step_shift hl₁
  exact ⟨_, hd₁, by rw [hst], by rw [hc₁], rfl, hl⟩

/-- A token that is read. -/
theorem Spec.StackReaches.reads {limit : Nat} {d e : Drive} {line : Nat} {t : Token} {rest : Located}
    (h : StackReaches limit d e) (he : e.step = .ok .accept) (hy : d.l.c.look = none)
    (hin : d.input = (line, t) :: rest) :
    ∃ d' y, StackReaches limit d' e ∧ d'.states = d.states ∧ d'.l.c.look = some y ∧ y.sym = .t (term t).1 ∧
      d'.input = rest := by
  have hstep : d.step = d.make (.read line (some t)) d.states rest := by
    simp only [Drive.step, hy, hin]
  obtain ⟨d₁, h₁, hl, hd₁⟩ := h.forced he (by rw [hstep]; exact Drive.make_accept)
  rw [hstep] at h₁
  obtain ⟨l₁, hl₁, rfl⟩ := Drive.make_go h₁
  obtain ⟨v, hv⟩ := readToken_sym d.l.c t
  exact ⟨_, _, hd₁, rfl, by rw [(step_read hl₁).2, hv], rfl, rfl⟩

/-- Where words follow each other, there is room for all of them if the file is accepted. -/
theorem words_room {limit : Nat} {e : Drive} {rest : Located} (he : e.step = .ok .accept) : ∀ (cs : Located)
    {d : Drive} {y : Entry} {s : Nat} {st : List Nat} {w : Term}, StackReaches limit d e → d.states = s :: st →
    s ∈ wordTops → d.l.c.look = some y → y.sym = .t w → w ∈ wordTerms → d.input = cs ++ rest →
    (∀ c ∈ cs, (term c.2).1 ∈ wordTerms) → d.states.length + cs.length + 1 < limit := by
  intro cs
  induction cs with
  | nil =>
    intro d y s st w hr hst hs hy hys hw hin hcs
    obtain ⟨x, hx, -, -⟩ := word_action s hs w hw
    obtain ⟨d₁, -, hst₁, -, -, hl⟩ := hr.shifts he hst hy hys hx
    rw [hst₁] at hl
    rw [hst]
    simpa using hl
  | cons c cs ih =>
    intro d y s st w hr hst hs hy hys hw hin hcs
    obtain ⟨line, t⟩ := c
    obtain ⟨x, hx, hg, hred⟩ := word_action s hs w hw
    obtain ⟨d₁, hr₁, hst₁, hy₁, hin₁, -⟩ := hr.shifts he hst hy hys hx
    obtain ⟨d₂, y₂, hr₂, hst₂, hy₂, hys₂, hin₂⟩ := hr₁.reads he hy₁ (hin₁.trans hin)
    have hw₂ := hcs _ List.mem_cons_self
    obtain ⟨p, r, hp, hrule, hlhs, hrhs⟩ := hred _ hw₂
    have hstep : d₂.step = d₂.make (.reduce r) (403 :: s :: st) d₂.input := by
      simp only [Drive.step, hy₂, hst₂, hst₁, hys₂, Sym.code, hp, hrule, Drive.reduceBy, hrhs,
        List.drop_succ_cons, List.drop_zero, hlhs, hg]
    obtain ⟨d₃, h₃, -, hr₃⟩ := hr₂.forced he (by rw [hstep]; exact Drive.make_accept)
    rw [hstep] at h₃
    obtain ⟨l₃, hl₃, rfl⟩ := Drive.make_go h₃
    have := ih (d := ⟨l₃, 403 :: s :: st, d₂.input⟩) (y := y₂) hr₃ rfl (by decide)
      (by rw [← hy₂]; exact reduce_look hl₃) hys₂ hw₂ hin₂
      (fun c hc => hcs c (List.mem_cons_of_mem _ hc))
    rw [hst]
    simp only [List.length_cons] at this ⊢
    omega

/-- What a round of `yyparse` does to the input. -/
theorem Lr.Drive.step_input {d d' : Drive} (h : d.step = .ok (.go d')) :
    (d.l.c.look = none ∧ d.input = [] ∧ d'.input = [] ∧ d'.states = d.states) ∨
    (∃ line t v, d.l.c.look = none ∧ d.input = (line, t) :: d'.input ∧ d'.l.c.look = some ⟨.t (term t).1, v⟩) ∨
    (∃ y s st x, d.l.c.look = some y ∧ d.states = s :: st ∧ lalrAction s y.sym.code = some (.shift x) ∧
      d'.states = x :: s :: st ∧ d'.l.c.look = none ∧ d'.input = d.input) ∨
    (∃ y, d.l.c.look = some y ∧ d'.l.c.look = some y ∧ d'.input = d.input) := by
  simp only [Drive.step] at h
  split at h
  · rename_i hl
    split at h
    · rename_i hi
      obtain ⟨l, -, rfl⟩ := Drive.make_go h
      exact .inl ⟨hl, hi, rfl, rfl⟩
    · rename_i line t rest hi
      obtain ⟨l, hs, rfl⟩ := Drive.make_go h
      obtain ⟨v, hv⟩ := readToken_sym d.l.c t
      exact .inr (.inl ⟨line, t, v, hl, hi, by rw [(step_read hs).2, hv]⟩)
  · rename_i y hl
    split at h
    · cases h
    · rename_i s st hst
      split at h
      · cases h
      · cases h
      · rename_i x hx
        obtain ⟨l, hs, rfl⟩ := Drive.make_go h
        obtain ⟨_, -, hc⟩ := step_shift hs
        exact .inr (.inr (.inl ⟨y, s, st, x, hl, hst, hx, by rw [hst], by rw [hc], rfl⟩))
      · split at h
        · cases h
        · simp only [Drive.reduceBy] at h
          split at h
          · cases h
          · split at h
            · cases h
            · obtain ⟨l, hs, rfl⟩ := Drive.make_go h
              exact .inr (.inr (.inr ⟨y, hl, (reduce_look hs).trans hl, rfl⟩))

/-- A file is accepted at its end. -/
theorem accept_look {d : Drive} (h : d.step = .ok .accept) :
    ∃ y, d.l.c.look = some y ∧ y.sym.code = Term.code .eof := by
  simp only [Drive.step] at h
  split at h
  · split at h <;> exact absurd h Drive.make_accept
  · rename_i y hl
    refine ⟨y, hl, ?_⟩
    split at h
    · cases h
    · rename_i s st hst
      split at h
      · cases h
      · rename_i ha
        simp only [lalrAction] at ha
        split at ha
        · rename_i hc
          rw [Bool.and_eq_true] at hc
          exact eq_of_beq hc.2
        · cases hr : lalrRow s with
          | none => rw [hr] at ha; cases ha
          | some row =>
            rw [hr] at ha
            simp only [Option.bind_some] at ha
            split at ha
            · cases ha
            · split at ha
              · cases ha
              · cases hdf : row.default <;> rw [hdf] at ha <;> cases ha
      · exact absurd h Drive.make_accept
      · split at h
        · cases h
        · simp only [Drive.reduceBy] at h
          split at h
          · cases h
          · split at h
            · cases h
            · exact absurd h Drive.make_accept

/-- Every token of the text is read on the way to where a file is accepted. -/
theorem Spec.StackReaches.comes {limit : Nat} {d e : Drive} {pre post : Located} {line : Nat} {t : Token}
    (h : StackReaches limit d e) (hin : d.input = pre ++ (line, t) :: post) :
    (∃ pre', e.input = pre' ++ (line, t) :: post) ∨
    ∃ d' v, StackReaches limit d' e ∧ d'.l.c.look = some ⟨.t (term t).1, v⟩ ∧ d'.input = post := by
  induction h with
  | refl => exact .inl ⟨pre, hin⟩
  | @step e e' h hs ih =>
    rcases ih with ⟨pre', hp⟩ | ⟨d', v, hr, hl, hi⟩
    · rcases Drive.step_input (Drive.stepWithin_eq hs).1 with ⟨-, hi, -, -⟩ | ⟨n, t', v, -, hi, hl⟩ |
        ⟨_, _, _, _, -, -, -, -, -, hi⟩ | ⟨_, -, -, hi⟩
      · rw [hi] at hp
        simp at hp
      · rw [hi] at hp
        cases pre' with
        | nil =>
          simp only [List.nil_append, List.cons.injEq, Prod.mk.injEq] at hp
          obtain ⟨⟨-, rfl⟩, hpost⟩ := hp
          exact .inr ⟨e', v, .refl, hl, hpost⟩
        | cons c pre' =>
          simp only [List.cons_append, List.cons.injEq] at hp
          exact .inl ⟨pre', hp.2⟩
      · exact .inl ⟨pre', hi.trans hp⟩
      · exact .inl ⟨pre', hi.trans hp⟩
    · exact .inr ⟨d', v, hr.step hs, hl, hi⟩

/-- No token is the end of the file. -/
theorem term_code_eof (t : Token) : (term t).1.code ≠ Term.code .eof := by
  cases t with
  | kw k => cases k <;> decide
  | p k => cases k <;> decide
  | _ => simp [term, Term.code]

/-- The end of a file is only seen if all has been read. -/
theorem end_read {limit : Nat} {m₀ : Mem} {expected : PlainFlavor} {mod : Str} {maps : Maps} {ts : Located}
    {d : Drive} (h : StackReaches limit (Drive.start m₀ expected mod maps ts) d) {y : Entry}
    (hl : d.l.c.look = some y) (hy : y.sym.code = Term.code .eof) : d.input = [] := by
  induction h generalizing y with
  | refl => cases hl
  | @step e e' h hs ih =>
    rcases Drive.step_input (Drive.stepWithin_eq hs).1 with ⟨-, -, hi, -⟩ | ⟨n, t', v, -, hi, hl'⟩ |
      ⟨_, _, _, _, -, -, -, -, hl', hi⟩ | ⟨y', hl₁, hl₂, hi⟩
    · exact hi
    · rw [hl] at hl'
      cases hl'
      exact absurd hy (term_code_eof t')
    · rw [hl] at hl'
      cases hl'
    · rw [hl] at hl₂
      cases hl₂
      rw [hi]
      exact ih hl₁ hy

/-- A token that has been read is shifted on the way to where a file is accepted. -/
theorem Spec.StackReaches.put {limit : Nat} {d e : Drive} {y : Entry}
    (h : StackReaches limit d e) (hl : d.l.c.look = some y) :
    (e.l.c.look = some y ∧ e.input = d.input) ∨
    ∃ d' s st x, StackReaches limit d' e ∧ lalrAction s y.sym.code = some (.shift x) ∧
      d'.states = x :: s :: st ∧ d'.l.c.look = none ∧ d'.input = d.input := by
  induction h with
  | refl => exact .inl ⟨hl, rfl⟩
  | @step e e' h hs ih =>
    rcases ih with ⟨hy, hi⟩ | ⟨d', s, st, x, hr, h'⟩
    · rcases Drive.step_input (Drive.stepWithin_eq hs).1 with ⟨hn, -, -, -⟩ | ⟨n, t', v, hn, -, -⟩ |
        ⟨y', s, st, x, hl₁, hst, ha, hst', hl₂, hi'⟩ | ⟨y', hl₁, hl₂, hi'⟩
      · rw [hy] at hn; cases hn
      · rw [hy] at hn; cases hn
      · rw [hy] at hl₁
        cases hl₁
        exact .inr ⟨e', s, st, x, .refl, ha, hst', hl₂, hi'.trans hi⟩
      · rw [hy] at hl₁
        cases hl₁
        exact .inl ⟨hl₂, hi'.trans hi⟩
    · exact .inr ⟨d', s, st, x, hr.step hs, h'⟩

/-- Where a warning is shifted, the state is always the same. -/
theorem warn_state {s x : Nat} (h : lalrAction s (Term.code (.kw .refpolicywarn)) = some (.shift x)) : x = 115 := by
  have key : (List.range 24).all (fun i => (List.range 25).all fun j =>
      match lalrAction (25 * i + j) (Term.code (.kw .refpolicywarn)) with
      | some (.shift x) => x == 115
      | _ => true) = true := by decide +kernel
  cases hr : lalrRow s with
  | none =>
    simp only [lalrAction, hr, Option.bind_none] at h
    split at h <;> cases h
  | some row =>
    obtain ⟨i, hi, -, hii⟩ := row_place hr
    have := List.all_eq_true.1 (List.all_eq_true.1 key i (List.mem_range.2 hi)) (s % 25)
      (List.mem_range.2 (Nat.mod_lt _ (by omega)))
    have e : 25 * i + s % 25 = s := by omega
    rw [e, h] at this
    exact eq_of_beq this

/-- **C101 (words).** If a file with a warning is accepted, wherever the warning stands, then its stack has room for all words
of the warning at once, and for five states more. -/
theorem C101_words {limit : Nat} {m₀ : Mem} {expected : PlainFlavor} {mod : Str} {maps : Maps}
    {pre cs rest : Located} {n₁ n₂ n₃ : Nat} (hcs : ∀ c ∈ cs, (term c.2).1 ∈ wordTerms) (hne : cs ≠ [])
    (hacc : ∃ d, StackReaches limit (Drive.start m₀ expected mod maps
        (pre ++ (n₁, .kw .refpolicywarn) :: (n₂, .p .openParen) :: (n₃, .p .backtick) :: (cs ++ rest))) d ∧
      d.stepWithin limit = .ok .accept) : cs.length + 4 < limit := by
  obtain ⟨e, hr, hs⟩ := hacc
  have he := C101_same.1.1 hs
  obtain ⟨y, hy, hye⟩ := accept_look he
  have hend := end_read hr hy hye
  rcases hr.comes (pre := pre) rfl with ⟨pre', hp⟩ | ⟨d₁, v, hr₁, hl₁, hi₁⟩
  · rw [hend] at hp
    simp at hp
  rcases hr₁.put hl₁ with ⟨hl, -⟩ | ⟨d₂, s, st, x, hr₂, ha, hst₂, hl₂, hi₂⟩
  · rw [hy] at hl
    cases hl
    exact absurd hye (term_code_eof (.kw .refpolicywarn))
  obtain rfl := warn_state ha
  rw [hi₁] at hi₂
  obtain ⟨d₃, y₃, hr₃, hst₃, hl₃, hys₃, hi₃⟩ := hr₂.reads he hl₂ hi₂
  have a₃ : lalrAction 115 (Term.code (.p .openParen)) = some (.shift 207) := by decide +kernel
  obtain ⟨d₄, hr₄, hst₄, hl₄, hi₄, -⟩ := hr₃.shifts he (hst₃.trans hst₂) hl₃ hys₃ a₃
  obtain ⟨d₅, y₅, hr₅, hst₅, hl₅, hys₅, hi₅⟩ := hr₄.reads he hl₄ (hi₄.trans hi₃)
  have a₅ : lalrAction 207 (Term.code (.p .backtick)) = some (.shift 314) := by decide +kernel
  obtain ⟨d₆, hr₆, hst₆, hl₆, hi₆, -⟩ := hr₅.shifts he (hst₅.trans hst₄) hl₅ hys₅ a₅
  cases cs with
  | nil => exact absurd rfl hne
  | cons c cs =>
    obtain ⟨n, t⟩ := c
    obtain ⟨d₇, y₇, hr₇, hst₇, hl₇, hys₇, hi₇⟩ := hr₆.reads he hl₆ (hi₆.trans hi₅)
    have := words_room he cs hr₇ (hst₇.trans hst₆) (by decide) hl₇ hys₇ (hcs _ List.mem_cons_self) hi₇
      (fun c hc => hcs c (List.mem_cons_of_mem _ hc))
    rw [hst₇, hst₆] at this
    simp only [List.length_cons] at this ⊢
    omega

/-- So a file in which a warning has 9996 words or more is not accepted. -/
theorem C101_warning {m₀ : Mem} {expected : PlainFlavor} {mod : Str} {maps : Maps} {pre cs rest : Located}
    {n₁ n₂ n₃ : Nat} (hcs : ∀ c ∈ cs, (term c.2).1 ∈ wordTerms) (hlen : 9996 ≤ cs.length) :
    ¬∃ d, StackReaches yyMaxDepth (Drive.start m₀ expected mod maps
        (pre ++ (n₁, .kw .refpolicywarn) :: (n₂, .p .openParen) :: (n₃, .p .backtick) :: (cs ++ rest))) d ∧
      d.stepWithin yyMaxDepth = .ok .accept := by
  intro h
  have := C101_words hcs (by rintro rfl; simp at hlen) h
  simp only [yyMaxDepth] at this
  omega

/-- A text of words. -/
def manyWords : Nat → M4String
  | 0 => .one (.word cs!"x")
  | n + 1 => .more (.word cs!"x") (manyWords n)

theorem manyWords_tokens (n : Nat) : (manyWords n).tokens = List.replicate (n + 1) (.string cs!"x") := by
  induction n with
  | zero => rfl
  | succ n ih => rw [manyWords, M4String.tokens, ih]; rfl

/-- A te file with a warning. -/
def wordsFile (n : Nat) : SourceFile :=
  .te [] ⟨1, cs!"m", true, true, cs!"1"⟩ (.one (.bare (.silent (.refpolicywarn (manyWords n)))))

/-- Its text, on one line. -/
def wordsText (n : Nat) : Located :=
  ([.kw .policyModule, tOpen, .string cs!"m", tComma, .number cs!"1", tClose].map fun t => (1, t)) ++
    (1, .kw .refpolicywarn) :: (1, .p .openParen) :: (1, .p .backtick) ::
      (List.replicate (n + 1) (1, .string cs!"x") ++ [(1, tQuote), (1, tClose)])

theorem wordsFile_at (n : Nat) : (wordsFile n).At (wordsText n) := by
  refine ⟨_, _, rfl, ⟨rfl, rfl⟩, ?_⟩
  show Located.toks _ = (Silent.refpolicywarn (manyWords n)).tokens
  simp only [Silent.tokens, manyWords_tokens, Located.toks]
  simp [tOpen, tTick]

theorem wordsFile_exec (n : Nat) : (wordsFile n).exec .teFile cs!"m" {} = (wordsFile 0).exec .teFile cs!"m" {} := rfl

/-- **C101 (the limit shows).** A te file with a warning of 9996 words is a file of the grammar whose statements can be built,
and it is not accepted. -/
theorem C101_not_words {m₀ : Mem} :
    (∃ g st, g.At (wordsText 9995) ∧ SourceFile.exec g .teFile cs!"m" {} = .ok (some st)) ∧
    ¬∃ d, StackReaches yyMaxDepth (Drive.start m₀ .teFile cs!"m" {} (wordsText 9995)) d ∧
      d.stepWithin yyMaxDepth = .ok .accept := by
  refine ⟨⟨wordsFile 9995, _, wordsFile_at 9995, (wordsFile_exec 9995).trans rfl⟩, ?_⟩
  refine C101_warning (fun c hc => ?_) (by rw [List.length_replicate]; exact Nat.le_refl _)
  rw [List.eq_of_mem_replicate hc]
  decide

end Selint
