import Verif.Lemmas.ParserStack
import Verif.Props.ParserEnds
/-!
# C101: when the parser's stack is large enough

bison's stack holds 10000 states. The theorems say for which texts that is enough, that nothing else
is accepted because of it, and that it is not enough for every text.
-/

namespace Selint
open Lr Spec

/-- **C101 (height).** Whenever `yyparse` is about to do something, its stack is no higher than what
has piled up in the tokens that it has shifted; at most one more token has been read. -/
theorem C101_height {m₀ : Mem} {expected : PlainFlavor} {mod : Str} {maps : Maps} {ts : Located}
    {d : Drive} (h : DriveReaches (Drive.start m₀ expected mod maps ts) d) :
    ∃ pre look : Located, ts = pre ++ look ++ d.input ∧ look.length ≤ 1 ∧
      (d.states.length : Int) ≤ (piledUp (termsOf pre)).room := by
  obtain ⟨pre, look, stk, segs, hr⟩ := Reads.reaches h
  refine ⟨pre, look, by rw [hr.all, List.append_assoc], ?_, ?_⟩
  · have := hr.looks
    simp only [Drive.Looks] at this
    split at this
    · simp [this]
    · rcases this with ⟨rfl, -, -⟩ | ⟨t, rfl, -⟩ <;> simp
  · have := hr.linked.room hr.yields
    rw [hr.states]
    simp only [List.length_append, List.length_map, List.length_cons, List.length_nil]
    omega

/-- With the limit `yyparse` does nothing that it does not do without. -/
theorem C101_sound {limit : Nat} {d₀ d : Drive} (h : StackReaches limit d₀ d) : DriveReaches d₀ d := by
  induction h with
  | refl => exact .refl
  | step _ hs ih =>
    refine .step ih ?_
    simp only [Drive.stepWithin] at hs
    split at hs
    · cases hs
    · cases hs
    · cases hs
    · rename_i d' hd
      split at hs
      · cases hs
      · cases hs
        exact hd

/-- Nor does it accept anything else, or complain about anything else except memory. -/
theorem C101_same {limit : Nat} {d : Drive} :
    (d.stepWithin limit = .ok .accept ↔ d.step = .ok .accept) ∧
    (d.stepWithin limit = .ok .reject ↔ d.step = .ok .reject) ∧
    (d.stepWithin limit = .ub ↔ d.step = .ub) ∧
    (d.stepWithin limit = .ok .exhausted ↔ ∃ d', d.step = .ok (.go d') ∧ limit ≤ d'.states.length) := by
  simp only [Drive.stepWithin]
  split
  · rename_i h; simp [h]
  · rename_i h; simp [h]
  · rename_i h; simp [h]
  · rename_i d' h
    split <;> rename_i hl <;> simp [h, hl]

/-- **C101 (enough).** If not too much piles up anywhere in a text, then the limit makes no difference:
memory is never exhausted. -/
theorem C101_enough {m₀ : Mem} {expected : PlainFlavor} {mod : Str} {maps : Maps} {ts : Located}
    (hroom : ∀ pre, pre <+: ts → (piledUp (termsOf pre)).room < yyMaxDepth) :
    (∀ d, StackReaches yyMaxDepth (Drive.start m₀ expected mod maps ts) d ↔
      DriveReaches (Drive.start m₀ expected mod maps ts) d) ∧
    ∀ d, StackReaches yyMaxDepth (Drive.start m₀ expected mod maps ts) d →
      d.stepWithin yyMaxDepth ≠ .ok .exhausted := by
  have low : ∀ {d}, DriveReaches (Drive.start m₀ expected mod maps ts) d →
      d.states.length < yyMaxDepth := by
    intro d h
    obtain ⟨pre, look, hts, -, hl⟩ := C101_height h
    have := hroom pre ⟨look ++ d.input, by rw [hts, List.append_assoc]⟩
    omega
  refine ⟨fun d => ⟨C101_sound, fun h => ?_⟩, fun d h hx => ?_⟩
  · induction h with
    | refl => exact .refl
    | @step d d' h hs ih =>
      refine .step ih ?_
      have := low (.step h hs)
      simp only [Drive.stepWithin, hs, if_neg (Nat.not_le.2 this)]
  · obtain ⟨d', hs, hl⟩ := C101_same.2.2.2.1 hx
    have := low (.step (C101_sound h) hs)
    omega

/-- **C101 (language).** So `yyparse` accepts such a text exactly if it is a file of the grammar whose
statements can be built. -/
theorem C101_language {m₀ : Mem} (hb : Bounded m₀) (expected : PlainFlavor) (mod : Str) (maps : Maps)
    (ts : Located) (hroom : ∀ pre, pre <+: ts → (piledUp (termsOf pre)).room < yyMaxDepth) :
    (∃ d, StackReaches yyMaxDepth (Drive.start m₀ expected mod maps ts) d ∧
      d.stepWithin yyMaxDepth = .ok .accept) ↔
      ∃ g st, g.At ts ∧ SourceFile.exec g expected mod maps = .ok (some st) := by
  rw [← C95_language hb]
  constructor
  · rintro ⟨d, hr, hs⟩
    exact ⟨d, C101_sound hr, C101_same.1.1 hs⟩
  · rintro ⟨d, hr, hs⟩
    exact ⟨d, ((C101_enough hroom).1 d).2 hr, C101_same.1.2 hs⟩

/-- **C101 (short texts).** The room needed grows by 12 at most with a token, so no text of 831 tokens
or less is too much. -/
theorem C101_short {ts : Located} (hlen : ts.length ≤ 831) :
    ∀ pre, pre <+: ts → (piledUp (termsOf pre)).room < yyMaxDepth := by
  have key : ∀ (ws : List Term) (p : PiledUp), (ws.foldl PiledUp.read p).room ≤ p.room + 12 * ws.length := by
    intro ws
    induction ws with
    | nil => intro p; simp
    | cons w ws ih =>
      intro p
      have h₁ := ih (p.read w)
      have h₂ : (p.read w).room ≤ p.room + 12 := by
        have ho : (p.read w).opened ≤ p.opened + (if isSign w then 0 else if w = .comment then 0 else
            if bracket w ≤ 0 then 0 else 1) := by
          simp only [PiledUp.read]
          cases w with
          | p k => cases k <;> simp [bracket, isSign] <;> split <;> omega
          | _ => simp [bracket, isSign]
        have hs : ((p.read w).signs : Int) ≤ p.signs + (if isSign w then 1 else 0) := by
          simp only [PiledUp.read]
          split
          · split <;> omega
          · split <;> omega
        have hc : ((p.read w).comments : Int) ≤ p.comments + (if w = .comment then 1 else 0) := by
          simp only [PiledUp.read]
          split
          · rename_i h
            simp [h.2]
          · split <;> omega
        have hw : ((p.read w).words : Int) ≤ p.words + 1 := by
          simp only [PiledUp.read]
          split
          · split <;> omega
          · omega
        simp only [PiledUp.room]
        by_cases h₁ : isSign w = true
        · have h₂ : w ≠ .comment := by
            rintro rfl
            cases h₁
          simp only [h₁, h₂, if_true, if_false] at ho hs hc
          omega
        · by_cases h₂ : w = .comment
          · simp only [h₂, if_true] at ho hs hc
            simp only [h₂] at hw ⊢
            simp only [show isSign .comment = false from rfl, Bool.false_eq_true, if_false] at ho hs
            omega
          · simp only [h₁, h₂, if_false, Bool.false_eq_true] at ho hs hc
            split at ho <;> omega
      simp only [List.foldl_cons, List.length_cons]
      omega
  intro pre hpre
  have h := key (termsOf pre) {}
  have h₀ : (({} : PiledUp)).room = 21 := rfl
  have hl : (termsOf pre).length ≤ 831 := by
    have := hpre.length_le
    simp only [termsOf, List.length_map]
    omega
  show ((termsOf pre).foldl PiledUp.read {}).room < (10000 : Nat)
  omega

/-! ### Comments at the beginning of a file -/

/-- On the way to where a file is accepted there is always a next step. -/
theorem Spec.DriveReaches.forced {d e : Drive} (h : DriveReaches d e) (he : e.step = .ok .accept)
    (hd : d.step ≠ .ok .accept) : ∃ d', d.step = .ok (.go d') ∧ DriveReaches d' e := by
  have key : ∀ {e : Drive}, DriveReaches d e → e = d ∨ ∃ d', d.step = .ok (.go d') ∧ DriveReaches d' e := by
    intro e h
    induction h with
    | refl => exact .inl rfl
    | @step e e' _ hs ih =>
      rcases ih with rfl | ⟨d', hd', h'⟩
      · exact .inr ⟨e', hs, .refl⟩
      · exact .inr ⟨d', hd', .step h' hs⟩
  rcases key h with rfl | h
  · exact absurd he hd
  · exact h

/-- The states below are those of comments. -/
def commentStates (k : Nat) : List Nat := List.replicate k 8 ++ [0]

theorem commentStates_top (k : Nat) : ∃ s rest, commentStates k = s :: rest ∧
    lalrAction s (Term.code .comment) = some (.shift 14) ∧ lalrGoto s (Nt.code .comment) = some 8 := by
  cases k with
  | zero => exact ⟨0, [], rfl, by decide +kernel, by decide +kernel⟩
  | succ k => exact ⟨8, commentStates k, rfl, by decide +kernel, by decide +kernel⟩

theorem Lr.Drive.stepWithin_go {limit : Nat} {d d' : Drive} (h : d.step = .ok (.go d'))
    (hl : d'.states.length < limit) : d.stepWithin limit = .ok (.go d') := by
  simp only [Drive.stepWithin, h, if_neg (Nat.not_le.2 hl)]

theorem reduce_look {l l' : Lined} {r : Rule} (h : l.step (.reduce r) = some (.ok (.go l'))) :
    l'.c.look = l.c.look := by
  simp only [Lined.step] at h
  split at h
  · cases h
  · cases h
  · rename_i c hc
    cases h
    obtain ⟨v, -, hl⟩ := step_reduce hc
    exact hl
  · cases h

/-- With comments as long as there is room, the stack is exhausted. -/
theorem comments_exhaust {limit : Nat} {d₀ e : Drive} (he : e.step = .ok .accept) : ∀ (n k : Nat)
    {d : Drive} {cs rest : Located} {y : Entry}, StackReaches limit d₀ d → DriveReaches d e →
    d.states = commentStates k → d.l.c.look = some y → y.sym = .t .comment → d.input = cs ++ rest →
    (∀ c ∈ cs, c.2 = .comment) → cs.length = n → limit ≤ k + 2 + n → k + 1 < limit →
    ∃ d', StackReaches limit d₀ d' ∧ d'.stepWithin limit = .ok .exhausted := by
  intro n
  induction n with
  | zero =>
    intro k d cs rest y hr hd hst hy hys hin hcs hlen hle hlt
    obtain ⟨s, st, hs, ha, hg⟩ := commentStates_top k
    have hstep : d.step = d.make .shift (14 :: d.states) d.input := by
      simp only [Drive.step, hy, hst, hs, hys, Sym.code, ha]
    obtain ⟨d₁, h₁, -⟩ := hd.forced he (by
      rw [hstep]
      intro h
      simp only [Drive.make] at h
      split at h <;> cases h)
    refine ⟨d, hr, C101_same.2.2.2.2 ⟨d₁, h₁, ?_⟩⟩
    rw [hstep] at h₁
    obtain ⟨l, -, rfl⟩ := Drive.make_go h₁
    simp only [List.length_cons, hst, commentStates, List.length_append, List.length_replicate,
      List.length_nil]
    omega
  | succ n ih =>
    intro k d cs rest y hr hd hst hy hys hin hcs hlen hle hlt
    obtain ⟨s, st, hs, ha, hg⟩ := commentStates_top k
    have hstep : d.step = d.make .shift (14 :: d.states) d.input := by
      simp only [Drive.step, hy, hst, hs, hys, Sym.code, ha]
    have nacc : ∀ {d : Drive} {mv states input}, d.make mv states input ≠ .ok .accept := by
      intro d mv states input h
      simp only [Drive.make] at h
      split at h <;> cases h
    obtain ⟨d₁, h₁, hd₁⟩ := hd.forced he (by rw [hstep]; exact nacc)
    have hm₁ := h₁
    rw [hstep] at hm₁
    obtain ⟨l₁, hl₁, hd₁'⟩ := Drive.make_go hm₁
    obtain ⟨e₁, -, hc₁⟩ := step_shift hl₁
    have hlen₁ : d₁.states.length = k + 2 := by
      rw [hd₁']
      simp only [List.length_cons, hst, commentStates, List.length_append, List.length_replicate,
        List.length_nil]
    by_cases hfull : limit ≤ k + 2
    · exact ⟨d, hr, C101_same.2.2.2.2 ⟨d₁, h₁, by omega⟩⟩
    · have hr₁ := hr.step (Drive.stepWithin_go h₁ (by omega))
      cases cs with
      | nil => simp at hlen
      | cons c cs =>
        obtain ⟨line, t⟩ := c
        obtain rfl : t = .comment := hcs _ List.mem_cons_self
        -- the next comment is read
        have hstep₁ : d₁.step = d₁.make (.read line (some .comment)) d₁.states (cs ++ rest) := by
          have hlk : d₁.l.c.look = none := by rw [hd₁', hc₁]
          have hin₁ : d₁.input = (line, .comment) :: (cs ++ rest) := by rw [hd₁', hin]; rfl
          simp only [Drive.step, hlk, hin₁]
        obtain ⟨d₂, h₂, hd₂⟩ := hd₁.forced he (by rw [hstep₁]; exact nacc)
        have hm₂ := h₂
        rw [hstep₁] at hm₂
        obtain ⟨l₂, hl₂, hd₂'⟩ := Drive.make_go hm₂
        have hc₂ := (step_read hl₂).2
        have hr₂ := hr₁.step (Drive.stepWithin_go h₂ (by rw [hd₂']; show d₁.states.length < limit; omega))
        have hlk₂ : d₂.l.c.look = some ⟨.t .comment, .none⟩ := by rw [hd₂', hc₂]; rfl
        have hst₂ : d₂.states = 14 :: commentStates k := by rw [hd₂', hd₁', hst]
        -- and the one before is reduced
        have hstep₂ : d₂.step = d₂.make (.reduce ⟨.comment, [.t .comment], [.insertComment], [], false⟩)
            (8 :: commentStates k) d₂.input := by
          have hact : lalrAction 14 (Term.code .comment) = some (.reduce 13) := by decide +kernel
          have hrule : rules[13]? = some ⟨.comment, [.t .comment], [.insertComment], [], false⟩ := by
            decide +kernel
          simp only [Drive.step, hlk₂, hst₂, Sym.code, hact, hrule, Drive.reduceBy, List.length_cons,
            List.length_nil, Nat.zero_add, List.drop_succ_cons, List.drop_zero, hs, hg]
        obtain ⟨d₃, h₃, hd₃⟩ := hd₂.forced he (by rw [hstep₂]; exact nacc)
        have hm₃ := h₃
        rw [hstep₂] at hm₃
        obtain ⟨l₃, hl₃, hd₃'⟩ := Drive.make_go hm₃
        have hst₃ : d₃.states = commentStates (k + 1) := by rw [hd₃']; rfl
        have hr₃ := hr₂.step (Drive.stepWithin_go h₃ (by
          rw [hst₃]
          simp only [commentStates, List.length_append, List.length_replicate, List.length_cons,
            List.length_nil]
          omega))
        have hlk₃ : d₃.l.c.look = some ⟨.t .comment, .none⟩ := by
          rw [← hlk₂, hd₃']
          exact reduce_look hl₃
        exact ih (k + 1) hr₃ hd₃ hst₃ hlk₃ rfl (by rw [hd₃', hd₂'])
          (fun c hc => hcs c (List.mem_cons_of_mem _ hc)) (by simpa using hlen) (by omega) (by omega)

/-- **C101 (comments).** If a file begins with so many comments as the stack has room for states, less
one, then memory is exhausted, however correct the file is. -/
theorem C101_exhausted {limit : Nat} {m₀ : Mem} {expected : PlainFlavor} {mod : Str} {maps : Maps}
    {cs rest : Located} (hcs : ∀ c ∈ cs, c.2 = .comment) (hlen : limit ≤ cs.length + 1)
    (hlim : 2 ≤ limit)
    (hacc : ∃ d, DriveReaches (Drive.start m₀ expected mod maps (cs ++ rest)) d ∧ d.step = .ok .accept) :
    ∃ d, StackReaches limit (Drive.start m₀ expected mod maps (cs ++ rest)) d ∧
      d.stepWithin limit = .ok .exhausted := by
  obtain ⟨e, hd, he⟩ := hacc
  cases cs with
  | nil =>
    simp only [List.length_nil] at hlen
    omega
  | cons c cs =>
    obtain ⟨line, t⟩ := c
    obtain rfl : t = .comment := hcs _ List.mem_cons_self
    have hstep : (Drive.start m₀ expected mod maps ((line, .comment) :: cs ++ rest)).step =
        (Drive.start m₀ expected mod maps ((line, .comment) :: cs ++ rest)).make
          (.read line (some .comment)) [0] (cs ++ rest) := rfl
    obtain ⟨d₁, h₁, hd₁⟩ := hd.forced he (by
      rw [hstep]
      intro h
      simp only [Drive.make] at h
      split at h <;> cases h)
    have hm := h₁
    rw [hstep] at hm
    obtain ⟨l, hl, hd'⟩ := Drive.make_go hm
    have hc := (step_read hl).2
    refine comments_exhaust he cs.length 0 (d := d₁) (cs := cs) (rest := rest) (y := ⟨.t .comment, .none⟩)
      (StackReaches.refl.step (Drive.stepWithin_go h₁ (by rw [hd']; show 1 < limit; omega))) hd₁
      (by rw [hd']; rfl) (by rw [hd', hc]; rfl) rfl (by rw [hd'])
      (fun c hc => hcs c (List.mem_cons_of_mem _ hc)) rfl (by simp only [List.length_cons] at hlen; omega)
      (by omega)

/-- What it does is determined, with a limit as well. -/
theorem C101_once {limit : Nat} {d₀ a b : Drive} (ha : StackReaches limit d₀ a)
    (hb : StackReaches limit d₀ b) (hsa : ∀ d, a.stepWithin limit ≠ .ok (.go d))
    (hsb : ∀ d, b.stepWithin limit ≠ .ok (.go d)) : a = b := by
  have next : ∀ {x y : Drive}, StackReaches limit x y →
      y = x ∨ ∃ x', x.stepWithin limit = .ok (.go x') ∧ StackReaches limit x' y := by
    intro x y h
    induction h with
    | refl => exact .inl rfl
    | @step y y' _ hs ih =>
      rcases ih with rfl | ⟨x', hx, h'⟩
      · exact .inr ⟨y', hs, .refl⟩
      · exact .inr ⟨x', hx, .step h' hs⟩
  have back : StackReaches limit b a := by
    clear hsb
    induction hb with
    | refl => exact ha
    | step _ hs ih =>
      rcases next ih with rfl | ⟨x', hx, h'⟩
      · exact absurd hs (hsa _)
      · rw [hs] at hx
        cases hx
        exact h'
  rcases next back with h | ⟨x', hx, -⟩
  · exact h
  · exact absurd hx (hsb _)

/-- **C101 (comments).** So a file that begins with 9999 comments is never accepted: either it is not
accepted without a limit, or memory is exhausted. -/
theorem C101_comments {m₀ : Mem} {expected : PlainFlavor} {mod : Str} {maps : Maps}
    {cs rest : Located} (hcs : ∀ c ∈ cs, c.2 = .comment) (hlen : 9999 ≤ cs.length) :
    ¬∃ d, StackReaches yyMaxDepth (Drive.start m₀ expected mod maps (cs ++ rest)) d ∧
      d.stepWithin yyMaxDepth = .ok .accept := by
  rintro ⟨d, hr, hs⟩
  obtain ⟨d', hr', hs'⟩ := C101_exhausted (limit := yyMaxDepth) hcs
    (by simp only [yyMaxDepth]; omega) (by decide) ⟨d, C101_sound hr, C101_same.1.1 hs⟩
  have := C101_once hr hr' (fun x hx => by rw [hs] at hx; cases hx)
    (fun x hx => by rw [hs'] at hx; cases hx)
  rw [this, hs'] at hs
  cases hs

/-- A text of nothing but comments, on one line. -/
def manyComments (n : Nat) : Located := List.replicate n (1, .comment)

/-- A text of comments is a file of the grammar, whatever their number. -/
theorem manyComments_file {m₀ : Mem} (hb : Bounded m₀) (expected : PlainFlavor) (mod : Str) (maps : Maps)
    (n : Nat) : ∃ d, DriveReaches (Drive.start m₀ expected mod maps (manyComments n)) d ∧
      d.step = .ok .accept := by
  cases n with
  | zero => exact C95_accepts (f := .empty) hb rfl rfl
  | succ n =>
    refine C95_accepts (f := .comments 1 (List.replicate n 1)) hb ?_ rfl
    show manyComments (n + 1) = commentsAt (1 :: List.replicate n 1)
    simp [manyComments, commentsAt, List.replicate_succ]

/-- **C101 (the limit shows).** It is not true that `yyparse` accepts every file of the grammar whose
statements can be built: 9999 comments are one. -/
theorem C101_not_all {m₀ : Mem} (hb : Bounded m₀) (expected : PlainFlavor) (mod : Str) (maps : Maps) :
    ∃ ts : Located, (∃ g st, g.At ts ∧ SourceFile.exec g expected mod maps = .ok (some st)) ∧
      (∃ d, StackReaches yyMaxDepth (Drive.start m₀ expected mod maps ts) d ∧
        d.stepWithin yyMaxDepth = .ok .exhausted) ∧
      ¬∃ d, StackReaches yyMaxDepth (Drive.start m₀ expected mod maps ts) d ∧
        d.stepWithin yyMaxDepth = .ok .accept := by
  have hacc := manyComments_file hb expected mod maps 9999
  have hcs : ∀ c ∈ manyComments 9999, c.2 = .comment := by
    intro c hc
    rw [List.eq_of_mem_replicate hc]
  have hlen : (manyComments 9999).length = 9999 := List.length_replicate
  refine ⟨manyComments 9999, (C95_language hb expected mod maps _).1 hacc, ?_, ?_⟩
  · have := C101_exhausted (limit := yyMaxDepth) (rest := []) hcs (by rw [hlen]; decide) (by decide)
      (by rw [List.append_nil]; exact hacc)
    rwa [List.append_nil] at this
  · have := C101_comments (m₀ := m₀) (expected := expected) (mod := mod) (maps := maps) (rest := [])
      hcs (by rw [hlen]; exact Nat.le_refl _)
    rwa [List.append_nil] at this

/-! ### C101 is about something -/

/-- What piles up in a text of comments. -/
theorem manyComments_room (n : Nat) : (piledUp (termsOf (manyComments n))).room = 21 + n := by
  have key : ∀ (n : Nat), (piledUp (termsOf (manyComments n))).part = .top ∧
      (piledUp (termsOf (manyComments n))).opened = 0 ∧ (piledUp (termsOf (manyComments n))).signs = 0 ∧
      (piledUp (termsOf (manyComments n))).words = 0 ∧
      (piledUp (termsOf (manyComments n))).comments = n := by
    intro n
    induction n with
    | zero => exact ⟨rfl, rfl, rfl, rfl, rfl⟩
    | succ n ih =>
      obtain ⟨h₁, h₂, h₃, h₄, h₅⟩ := ih
      have e : piledUp (termsOf (manyComments (n + 1))) =
          (piledUp (termsOf (manyComments n))).read .comment := by
        simp only [manyComments, List.replicate_succ', termsOf_append, piledUp, List.foldl_append]
        rfl
      rw [e]
      simp [PiledUp.read, h₁, h₂, h₃, h₅, TextPart.after, TextPart.quoted, bracket, isSign,
        endsSigns]
  obtain ⟨-, h₂, h₃, h₄, h₅⟩ := key n
  simp only [PiledUp.room, h₂, h₃, h₄, h₅]
  omega

/-- The stack is large enough for 9978 comments. -/
example : ∃ d, StackReaches yyMaxDepth (Drive.start ⟨fun _ => none, 0⟩ .teFile cs!"m" {}
    (manyComments 9978)) d ∧ d.stepWithin yyMaxDepth = .ok .accept := by
  have hb : Bounded ⟨fun _ => none, 0⟩ := fun _ _ => rfl
  refine (C101_language hb _ _ _ _ fun pre hpre => ?_).2
    ((C95_language hb _ _ _ _).1 (manyComments_file hb _ _ _ _))
  obtain ⟨n, hn, rfl⟩ : ∃ n, n ≤ 9978 ∧ pre = manyComments n := by
    obtain ⟨suf, h⟩ := hpre
    have h := List.append_eq_replicate_iff.1 (show pre ++ suf = List.replicate 9978 (1, .comment) from h)
    exact ⟨pre.length, by omega, h.2.1⟩
  rw [manyComments_room]
  simp only [yyMaxDepth]
  omega

/-- It is large enough for a header, a require block and a rule. -/
example : ∃ d, StackReaches yyMaxDepth (Drive.start ⟨fun _ => none, 0⟩ .teFile cs!"m" {}
    ((lexFile bracedText).getD [])) d ∧ d.stepWithin yyMaxDepth = .ok .accept := by
  obtain ⟨g, hg, st, hx⟩ : ∃ g, pFile ((lexFile bracedText).getD []) = some g ∧
      ∃ st, g.exec .teFile cs!"m" {} = .ok (some st) :=
    ⟨_, by with_unfolding_all rfl, _, by with_unfolding_all rfl⟩
  exact (C101_language (fun _ _ => rfl) _ _ _ _ (C101_short (by decide +kernel))).2
    ⟨g, st, C68_sound hg, hx⟩

/-- Brackets count, and so do signs: `allow a { b { c` and `allow a ! ! b`. -/
example : (piledUp [.kw .allow, .string, .p .openCurly, .string, .p .openCurly, .string]).room = 43 ∧
    (piledUp [.kw .allow, .string, .p .not, .p .not, .string]).room = 43 ∧
    (piledUp [.kw .allow, .string, .p .not, .string, .p .semicolon]).room = 21 := by decide

end Selint
