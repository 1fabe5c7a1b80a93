import Verif.Props.ManyWords
/-!
# C101: definitions of too many words

`define(name, `words')` (parse.y:845-872) keeps its words on the stack as a warning does.
-/

namespace Selint
open Lr Spec

/-- After the quote of a definition a word is shifted as in a warning. -/
theorem define_action : ∀ w ∈ wordTerms, ∃ x, lalrAction 502 w.code = some (.shift x) ∧
    lalrGoto 502 (Nt.code .m4StringElem) = some 403 ∧ ∀ w' ∈ wordTerms, ∃ p r, lalrAction x w'.code = some (.reduce p) ∧
      rules[p]? = some r ∧ r.lhs = .m4StringElem ∧ r.rhs.length = 1 := by
  intro w hw
  have key : (wordTerms.all fun w => lalrAction 502 w.code == lalrAction 314 w.code &&
      lalrGoto 502 (Nt.code .m4StringElem) == some 403) = true := by decide +kernel
  have h := List.all_eq_true.1 key w hw
  rw [Bool.and_eq_true] at h
  obtain ⟨x, hx, -, h'⟩ := word_action 314 (by decide) w hw
  exact ⟨x, by rw [eq_of_beq h.1, hx], eq_of_beq h.2, h'⟩

/-- A production that is reduced. -/
theorem Spec.StackReaches.reduces {limit : Nat} {d e : Drive} {s p u g : Nat} {st st' : List Nat} {w : Term} {y : Entry}
    {r : Rule} (h : StackReaches limit d e) (he : e.step = .ok .accept) (hst : d.states = s :: st)
    (hy : d.l.c.look = some y) (hys : y.sym = .t w) (ha : lalrAction s w.code = some (.reduce p))
    (hr : rules[p]? = some r) (hd : (s :: st).drop r.rhs.length = u :: st') (hg : lalrGoto u r.lhs.code = some g) :
    ∃ d', StackReaches limit d' e ∧ d'.states = g :: u :: st' ∧ d'.l.c.look = some y ∧ d'.input = d.input := by
  have hstep : d.step = d.make (.reduce r) (g :: u :: st') d.input := by
    simp only [Drive.step, hy, hst, hys, Sym.code, ha, hr, Drive.reduceBy, hd, hg]
  obtain ⟨d₁, h₁, -, hr₁⟩ := h.forced he (by rw [hstep]; exact Drive.make_accept)
  rw [hstep] at h₁
  obtain ⟨l₁, hl₁, rfl⟩ := Drive.make_go h₁
  exact ⟨_, hr₁, rfl, (reduce_look hl₁).trans hy, rfl⟩

/-- Where a definition is shifted, the state is that of a support file or that of a statement. -/
theorem define_state {s x : Nat} (h : lalrAction s (Term.code (.kw .define)) = some (.shift x)) : x = 16 ∨ x = 95 := by
  have key : (List.range 24).all (fun i => (List.range 25).all fun j =>
      match lalrAction (25 * i + j) (Term.code (.kw .define)) with
      | some (.shift x) => x == 16 || x == 95
      | _ => true) = true := by decide +kernel
  cases hr : lalrRow s with
  | none =>
    simp only [lalrAction, hr, Option.bind_none] at h
    split at h <;> cases h
  | some row =>
    obtain ⟨i, hi, -, hii⟩ := row_place hr
    have := List.all_eq_true.1 (List.all_eq_true.1 key i (List.mem_range.2 hi)) (s % 25)
      (List.mem_range.2 (Nat.mod_lt _ (by omega)))
    have e : 25 * i + s % 25 = s := by omega
    rw [e, h] at this
    simpa using this

/-- **C101 (definitions).** If a file with a definition is accepted, wherever the definition stands, then its stack has room for
all words of the definition at once, and for eight states more. -/
theorem C101_definition {limit : Nat} {m₀ : Mem} {expected : PlainFlavor} {mod : Str} {maps : Maps}
    {pre cs rest : Located} {name : Str} {n₁ n₂ n₃ n₄ n₅ : Nat} (hcs : ∀ c ∈ cs, (term c.2).1 ∈ wordTerms)
    (hlen : 2 ≤ cs.length)
    (hacc : ∃ d, StackReaches limit (Drive.start m₀ expected mod maps
        (pre ++ (n₁, .kw .define) :: (n₂, .p .openParen) :: (n₃, .string name) :: (n₄, .p .comma) ::
          (n₅, .p .backtick) :: (cs ++ rest))) d ∧
      d.stepWithin limit = .ok .accept) : cs.length + 7 < limit := by
  obtain ⟨e, hr, hs⟩ := hacc
  have he := C101_same.1.1 hs
  obtain ⟨y, hy, hye⟩ := accept_look he
  have hend := end_read hr hy hye
  rcases hr.comes (pre := pre) rfl with ⟨pre', hp⟩ | ⟨d₁, v, hr₁, hl₁, hi₁⟩
  · rw [hend] at hp
    simp at hp
  rcases hr₁.put hl₁ with ⟨hl, -⟩ | ⟨d₂, s, st, x, hr₂, ha, hst₂, hl₂, hi₂⟩
  · rw [hy] at hl
    cases hl
    exact absurd hye (term_code_eof (.kw .define))
  rw [hi₁] at hi₂
  obtain ⟨d₃, y₃, hr₃, hst₃, hl₃, hys₃, hi₃⟩ := hr₂.reads he hl₂ hi₂
  rcases define_state ha with rfl | rfl
  · -- in a support file the name is quoted
    have a₃ : lalrAction 16 (Term.code (.p .openParen)) = some (.shift 141) := by decide +kernel
    obtain ⟨d₄, hr₄, hst₄, hl₄, hi₄, -⟩ := hr₃.shifts he (hst₃.trans hst₂) hl₃ hys₃ a₃
    obtain ⟨d₅, y₅, hr₅, hst₅, hl₅, hys₅, hi₅⟩ := hr₄.reads he hl₄ (hi₄.trans hi₃)
    have a₅ : lalrAction 141 (Term.code .string) = none := by decide +kernel
    have hstep : d₅.step = .ok .reject := by
      simp only [Drive.step, hl₅, hst₅.trans hst₄, hys₅, term, Sym.code, a₅]
    obtain ⟨_, h, -⟩ := hr₅.forced he (by rw [hstep]; simp)
    rw [hstep] at h
    cases h
  have a₃ : lalrAction 95 (Term.code (.p .openParen)) = some (.shift 195) := by decide +kernel
  obtain ⟨d₄, hr₄, hst₄, hl₄, hi₄, -⟩ := hr₃.shifts he (hst₃.trans hst₂) hl₃ hys₃ a₃
  obtain ⟨d₅, y₅, hr₅, hst₅, hl₅, hys₅, hi₅⟩ := hr₄.reads he hl₄ (hi₄.trans hi₃)
  have a₅ : lalrAction 195 (Term.code .string) = some (.reduce 222) := by decide +kernel
  have r₅ : rules[222]? = some ⟨.midDefine, [], [.beginBlock .define], [.t (.kw .define), .t (.p .openParen)], false⟩ := by
    decide +kernel
  obtain ⟨d₆, hr₆, hst₆, hl₆, hi₆⟩ := hr₅.reduces he (hst₅.trans hst₄) hl₅ hys₅ a₅ r₅ rfl
    (g := 297) (by decide +kernel)
  have a₆ : lalrAction 297 (Term.code .string) = some (.shift 389) := by decide +kernel
  obtain ⟨d₇, hr₇, hst₇, hl₇, hi₇, -⟩ := hr₆.shifts he hst₆ hl₆ hys₅ a₆
  obtain ⟨d₈, y₈, hr₈, hst₈, hl₈, hys₈, hi₈⟩ := hr₇.reads he hl₇ (hi₇.trans (hi₆.trans hi₅))
  have a₈ : lalrAction 389 (Term.code (.p .comma)) = some (.reduce 225) := by decide +kernel
  have r₈ : rules[225]? = some ⟨.defineName, [.t .string], [.free 1], [], false⟩ := by decide +kernel
  obtain ⟨d₉, hr₉, hst₉, hl₉, hi₉⟩ := hr₈.reduces he (hst₈.trans hst₇) hl₈ hys₈ a₈ r₈ rfl
    (g := 387) (by decide +kernel)
  have a₉ : lalrAction 387 (Term.code (.p .comma)) = some (.shift 458) := by decide +kernel
  obtain ⟨e₁, hr₁', hst₁', hl₁', hi₁', -⟩ := hr₉.shifts he hst₉ hl₉ hys₈ a₉
  obtain ⟨e₂, z₂, hr₂', hst₂', hl₂', hys₂', hi₂'⟩ := hr₁'.reads he hl₁' (hi₁'.trans (hi₉.trans hi₈))
  have b₂ : lalrAction 458 (Term.code (.p .backtick)) = some (.shift 502) := by decide +kernel
  obtain ⟨e₃, hr₃', hst₃', hl₃', hi₃', -⟩ := hr₂'.shifts he (hst₂'.trans hst₁') hl₂' hys₂' b₂
  cases cs with
  | nil => simp at hlen
  | cons c cs =>
    obtain ⟨n, t⟩ := c
    obtain ⟨e₄, z₄, hr₄', hst₄', hl₄', hys₄', hi₄'⟩ := hr₃'.reads he hl₃' (hi₃'.trans hi₂')
    obtain ⟨x, hx, hg, hred⟩ := define_action _ (hcs _ List.mem_cons_self)
    obtain ⟨e₅, hr₅', hst₅', hl₅', hi₅', -⟩ := hr₄'.shifts he (hst₄'.trans hst₃') hl₄' hys₄' hx
    cases cs with
    | nil => simp at hlen
    | cons c cs =>
      obtain ⟨n', t'⟩ := c
      have hw := hcs (n', t') (by simp)
      obtain ⟨e₆, z₆, hr₆', hst₆', hl₆', hys₆', hi₆'⟩ := hr₅'.reads he hl₅' (hi₅'.trans hi₄')
      obtain ⟨p, r, hp, hrule, hlhs, hrhs⟩ := hred _ hw
      obtain ⟨e₇, hr₇', hst₇', hl₇', hi₇'⟩ := hr₆'.reduces he (hst₆'.trans hst₅') hl₆' hys₆' hp hrule
        (by rw [hrhs]; rfl) (by rw [hlhs]; exact hg)
      have := words_room he cs hr₇' hst₇' (by decide) hl₇' hys₆' hw (hi₇'.trans hi₆')
        (fun c hc => hcs c (by simp [hc]))
      rw [hst₇'] at this
      simp only [List.length_cons] at this ⊢
      omega

/-- So a file in which a definition has 9993 words or more is not accepted. -/
theorem C101_long_definition {m₀ : Mem} {expected : PlainFlavor} {mod : Str} {maps : Maps} {pre cs rest : Located}
    {name : Str} {n₁ n₂ n₃ n₄ n₅ : Nat} (hcs : ∀ c ∈ cs, (term c.2).1 ∈ wordTerms) (hlen : 9993 ≤ cs.length) :
    ¬∃ d, StackReaches yyMaxDepth (Drive.start m₀ expected mod maps
        (pre ++ (n₁, .kw .define) :: (n₂, .p .openParen) :: (n₃, .string name) :: (n₄, .p .comma) ::
          (n₅, .p .backtick) :: (cs ++ rest))) d ∧
      d.stepWithin yyMaxDepth = .ok .accept := by
  intro h
  have := C101_definition hcs (by omega) h
  simp only [yyMaxDepth] at this
  omega

/-- A te file with a definition. -/
def definitionFile (n : Nat) : SourceFile :=
  .te [] ⟨1, cs!"m", true, true, cs!"1"⟩ (.one (.bare (.define 1 false cs!"d" (.text (manyWords n)))))

/-- Its text, on one line. -/
def definitionText (n : Nat) : Located :=
  ([.kw .policyModule, tOpen, .string cs!"m", tComma, .number cs!"1", tClose].map fun t => (1, t)) ++
    (1, .kw .define) :: (1, .p .openParen) :: (1, .string cs!"d") :: (1, .p .comma) :: (1, .p .backtick) ::
      (List.replicate (n + 1) (1, .string cs!"x") ++ [(1, tQuote), (1, tClose)])

theorem definitionFile_at (n : Nat) : (definitionFile n).At (definitionText n) := by
  refine ⟨_, _, rfl, ⟨rfl, rfl⟩, [(1, .kw .define), (1, .p .openParen)], _, rfl, rfl, rfl, ?_⟩
  simp only [DefineContent.tokens, manyWords_tokens, Located.toks, defineNameTokens]
  simp [tComma, tTick]

theorem definitionFile_exec (n : Nat) :
    (definitionFile n).exec .teFile cs!"m" {} = (definitionFile 0).exec .teFile cs!"m" {} := rfl

/-- **C101 (the limit shows).** A te file with a definition of 9993 words is a file of the grammar whose statements can be
built, and it is not accepted. -/
theorem C101_not_definition {m₀ : Mem} :
    (∃ g st, g.At (definitionText 9992) ∧ SourceFile.exec g .teFile cs!"m" {} = .ok (some st)) ∧
    ¬∃ d, StackReaches yyMaxDepth (Drive.start m₀ .teFile cs!"m" {} (definitionText 9992)) d ∧
      d.stepWithin yyMaxDepth = .ok .accept := by
  refine ⟨⟨definitionFile 9992, _, definitionFile_at 9992, (definitionFile_exec 9992).trans rfl⟩, ?_⟩
  refine C101_long_definition (fun c hc => ?_) (by rw [List.length_replicate]; exact Nat.le_refl _)
  rw [List.eq_of_mem_replicate hc]
  decide

end Selint
