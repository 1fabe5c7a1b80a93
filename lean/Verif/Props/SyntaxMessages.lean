import Verif.Lemmas.LalrMessages
import Verif.Props.SyntaxErrors
/-!
# C98: what is said about a syntax error is true
-/

namespace Selint
open Spec Lr

theorem Lr.expectingText_eq (endName : Str) (xs : List Term) :
    expectingText endName xs = expects (xs.map (Term.name endName)) := by
  cases xs with
  | nil => rfl
  | cons x xs =>
    have key : ∀ (x : Term) (xs : List Term),
        (cs!" or ").intercalate ((x :: xs).map (Term.name endName)) =
          x.name endName ++ xs.flatMap fun y => cs!" or " ++ y.name endName := by
      intro x xs
      induction xs generalizing x with
      | nil => simp
      | cons y ys ih =>
        rw [List.map_cons, List.map_cons, List.intercalate_cons_cons, ← List.map_cons, ih,
          List.flatMap_cons, List.append_assoc, List.append_assoc]
    simp only [expectingText, expects, List.map_cons, List.cons_ne_nil, if_false, List.append_assoc]
    rw [← List.map_cons, key]

theorem Lr.term_ne_eof (t : Token) : (term t).1 ≠ .eof := fun h => by
  have := (eofCode_iff (t := some t)).1 (by rw [tokenSym_some, h]; rfl)
  cases this

/-- Where `yyparse` is when the tables have no entry. -/
theorem Lr.Reads.here {ts : Located} {d : Drive} {pre look : Located} {stk : List (Nat × Sym)}
    {segs : List Located} (hr : Reads ts d pre look stk segs) {e : Entry}
    (he : d.l.c.look = some e) (endLine : Nat) :
    e.sym = .t (kindAt ts pre.length) ∧ d.lookLine endLine = lineAt ts endLine pre.length ∧
      headLine endLine (look ++ d.input) = lineAt ts endLine pre.length ∧
      (termsOf ts).take pre.length = termsOf pre := by
  have hall := hr.all
  have hl := hr.looks
  simp only [Drive.Looks, he] at hl
  have htake : (termsOf ts).take pre.length = termsOf pre := by
    rw [hall, termsOf_append]
    exact List.take_left' (by simp [termsOf])
  have hget : ts[pre.length]? = (look ++ d.input).head? := by
    rw [hall, List.getElem?_append_right (Nat.le_refl _), Nat.sub_self, List.head?_eq_getElem?]
  have hkind : kindAt ts pre.length = (((look ++ d.input).head?).map fun t => (term t.2).1).getD .eof := by
    simp only [kindAt, termsOf, List.getElem?_map, hget]
  refine ⟨?_, ?_, by simp only [headLine, lineAt, hget], htake⟩
  · rw [hkind]
    rcases hl with ⟨rfl, hs, hi⟩ | ⟨t, rfl, hs⟩
    · rw [hs, hi]; rfl
    · rw [hs]; rfl
  · simp only [Drive.lookLine, he, lineAt, hget]
    obtain ⟨sym, v⟩ := e
    rcases hl with ⟨rfl, hs, hi⟩ | ⟨t, rfl, hs⟩
    · have hs : sym = .t .eof := hs
      subst hs
      rw [hi]; rfl
    · have hs : sym = .t (term t).1 := hs
      subst hs
      have := term_ne_eof t
      split
      · rename_i h
        simp only [Option.some.injEq, Entry.mk.injEq, Sym.t.injEq] at h
        exact absurd h.1 this
      · rfl

/-- **C98 (message).** When the tables have no entry for the token that was read, the message is
about the place of C97's error: it has the line and the kind of the token there, and every token
that it says was expected may really come there. It names at most four, none twice, and none at all
only if more than four may come. -/
theorem C98_message {m₀ : Mem} {expected : PlainFlavor} {mod : Str} {maps : Maps} {ts : Located}
    {d : Drive} (h : DriveReaches (Drive.start m₀ expected mod maps ts) d) {e : Entry} {s : Nat}
    {rest : List Nat} (he : d.l.c.look = some e) (hst : d.states = s :: rest)
    (ha : lalrAction s e.sym.code = none) (endName : Str) (endLine : Nat) :
    ∃ n names, ErrorAfter n (termsOf ts) ∧
      (d.syntaxErrors endName endLine).head? = some (lineAt ts endLine n,
        cs!"syntax error, unexpected " ++ (kindAt ts n).name endName ++
          expects (names.map (Term.name endName))) ∧
      names.length ≤ 4 ∧ names.Nodup ∧ (∀ x ∈ names, MayFollow ((termsOf ts).take n) x) ∧
      (names = [] → ∃ may : List Term, may.Nodup ∧ 4 < may.length ∧
        ∀ x ∈ may, MayFollow ((termsOf ts).take n) x) := by
  obtain ⟨pre, look, stk, segs, hr⟩ := Reads.reaches h
  have htop := hr.top hst
  obtain ⟨hkind, hline, -, htake⟩ := hr.here he endLine
  have herr := hr.errorAfter he hst ha
  have hexp := hr.linked.expected hr.yields (a := e.sym.code) (by rw [htop]; exact ha)
  rw [htop] at hexp
  refine ⟨pre.length, if (lalrExpected s).length ≤ 4 then lalrExpected s else [], herr, ?_, ?_, ?_, ?_, ?_⟩
  · obtain ⟨sym, v⟩ := e
    have hkind : sym = .t (kindAt ts pre.length) := hkind
    subst hkind
    have ha : lalrAction s (kindAt ts pre.length).code = none := ha
    simp only [Drive.syntaxErrors, he, hst, if_pos ha, List.head?_cons, hline, syntaxMessage,
      expectingText_eq]
  · split
    · assumption
    · simp
  · split
    · exact declared_nodup.filter _
    · exact .nil
  · rw [htake]
    split
    · rename_i hlen
      rw [if_pos hlen] at hexp
      exact hexp.2
    · intro x hx
      cases hx
  · rw [htake]
    split
    · rename_i hlen
      rw [if_pos hlen] at hexp
      exact fun h => absurd h hexp.1
    · rename_i hlen
      rw [if_neg hlen] at hexp
      exact fun _ => hexp

/-- **C98 (statement).** There is at most one further message, that a statement is invalid; its line
is that of a token not behind the error, where any statement may begin. -/
theorem C98_statement {m₀ : Mem} {expected : PlainFlavor} {mod : Str} {maps : Maps} {ts : Located}
    {d : Drive} (h : DriveReaches (Drive.start m₀ expected mod maps ts) d) {n : Nat}
    (hn : ErrorAfter n (termsOf ts)) (endName : Str) (endLine : Nat) :
    (d.syntaxErrors endName endLine).tail = [] ∨
    ∃ k, k ≤ n ∧ StatementMayFollow ((termsOf ts).take k) ∧
      (d.syntaxErrors endName endLine).tail = [(lineAt ts endLine k, cs!"Error: Invalid statement")] := by
  unfold Drive.syntaxErrors
  split
  · rename_i x v s rest he hst
    split
    · rename_i ha
      obtain ⟨pre, look, stk, segs, hr⟩ := Reads.reaches h
      obtain ⟨-, hline, hhead, htake⟩ := hr.here he endLine
      have := C97_unique hn (hr.errorAfter he hst ha)
      subst this
      cases hrec : recoverLine d.states d.l.spans (d.lookLine endLine) with
      | none => exact .inl rfl
      | some line =>
        right
        rw [hr.states] at hrec
        obtain ⟨us, vs, h₁, h₃, h₄, rfl⟩ := hr.laid.recovers (endLine := endLine) hr.linked
          (after := look ++ d.input) (fun _ => by rw [hline, hhead]) hrec
        rw [← hr.parts, ← hr.all] at h₁
        refine ⟨us.length, ?_, ?_, ?_⟩
        · rw [← hr.parts] at h₃
          exact h₃
        · rw [h₁, termsOf_append, List.take_left' (by simp [termsOf])]
          exact h₄
        · have : headLine endLine vs = lineAt ts endLine us.length := by
            simp only [headLine, lineAt]
            rw [h₁, List.getElem?_append_right (Nat.le_refl _), Nat.sub_self, List.head?_eq_getElem?]
          rw [this]
          rfl
    · exact .inl rfl
  · exact .inl rfl

/-- **C98 (actions).** The same is said after an action has come to `YYERROR`, with the line of a token
not behind the last one read, where any statement may begin. -/
theorem C98_action {m₀ : Mem} {expected : PlainFlavor} {mod : Str} {maps : Maps} {ts : Located}
    {d : Drive} (h : DriveReaches (Drive.start m₀ expected mod maps ts) d) (endLine : Nat) :
    d.actionErrors = [] ∨
    ∃ k, k ≤ ts.length - d.input.length ∧ StatementMayFollow ((termsOf ts).take k) ∧
      d.actionErrors = [(lineAt ts endLine k, cs!"Error: Invalid statement")] := by
  unfold Drive.actionErrors
  split
  · rename_i e s rest he hst
    split
    · rename_i p ha
      split
      · rename_i r hr
        split
        · rename_i l hl
          obtain ⟨pre, look, stk, segs, hrd⟩ := Reads.reaches h
          have hrm : r ∈ rules := List.mem_of_getElem? hr
          rw [← hrd.top hst] at ha
          obtain ⟨hfit, hlen, s', hg⟩ := hrd.linked.fits hrd.stack ha hr
          have hsp : l.spans = d.l.spans.drop r.rhs.length := by
            simp only [Lined.step] at hl
            split at hl
            · cases hl
            · cases hl
            · cases hl
            · cases hl; rfl
          have hmap := hrd.onStack ha hr
          have hst' : d.states.drop r.rhs.length = (stk.drop r.rhs.length).map (·.1) ++ [0] := by
            rw [hrd.states, List.drop_append_of_le_length (by simpa using hlen), List.map_drop]
          rw [hsp, hst']
          cases hrec : recoverLine ((stk.drop r.rhs.length).map (·.1) ++ [0])
              (d.l.spans.drop r.rhs.length) (spanOf r.rhs.length d.l.spans).first with
          | none => exact .inl rfl
          | some line =>
            right
            obtain ⟨us, vs, h₁, h₃, h₄, rfl⟩ := (hrd.laid.drop r.rhs.length).recovers
              (endLine := endLine) hrd.linked.drop
              (after := (segs.take r.rhs.length).reverse.flatten ++ (look ++ d.input)) (fun hu => by
                have hsol := goto_solid hu hg
                have hc := List.all_eq_true.1 solid_checked r hrm
                rw [hsol] at hc
                obtain ⟨sp, hl, t', us, hee, ht'⟩ := (hrd.laid.take r.rhs.length).begins (by
                  rw [hmap, List.getLast?_reverse]
                  simpa using hc)
                simp only [spanOf, hl, hee, headLine]
                exact ht') hrec
            have hflat : (segs.drop r.rhs.length).reverse.flatten ++
                (segs.take r.rhs.length).reverse.flatten = pre := by
              rw [← List.flatten_append, ← List.reverse_append, List.take_append_drop, ← hrd.parts]
            rw [← List.append_assoc, hflat, ← hrd.all] at h₁
            refine ⟨us.length, ?_, ?_, ?_⟩
            · have h₅ := congrArg List.length hrd.all
              have h₆ := congrArg List.length hflat
              simp only [List.length_append] at h₅ h₆
              omega
            · rw [h₁, termsOf_append, List.take_left' (by simp [termsOf])]
              exact h₄
            · have : headLine endLine vs = lineAt ts endLine us.length := by
                simp only [headLine, lineAt]
                rw [h₁, List.getElem?_append_right (Nat.le_refl _), Nat.sub_self,
                  List.head?_eq_getElem?]
              rw [this]
              rfl
        · exact .inl rfl
      · exact .inl rfl
    · exact .inl rfl
  · exact .inl rfl

/-! ### C98 is about something -/

/-- The state in which `yyparse` ends on a te file. -/
def endOf (text : Str) : Drive :=
  driveTo 200 (Drive.start ⟨fun _ => none, 0⟩ .teFile cs!"m" {} ((lexFile text).getD []))

/-- tests/functional/policies/parse_errors/test1.te and test1.output. -/
example : (endOf cs!"policy_module(test1, 0.0.1)\n\nallow source target cls permission;\n").syntaxErrors
    cs!"end of file" 4 =
      [(3, cs!"syntax error, unexpected STRING, expecting COLON or SEMICOLON"),
        (3, cs!"Error: Invalid statement")] := by
  with_unfolding_all rfl

/-- test2.te and test2.output: here there is no second message. -/
def test2 : Str := cs!"# Comment\nallow allow;\n"

theorem test2_messages : (endOf test2).syntaxErrors cs!"end of file" 3 =
    [(2, cs!"syntax error, unexpected ALLOW, expecting end of file")] := by
  with_unfolding_all rfl

/-- test4.te and test4.output. -/
example : (endOf cs!"allo\x01\n").syntaxErrors cs!"end of file" 2 =
    [(1, cs!"syntax error, unexpected STRING, expecting end of file")] := by
  with_unfolding_all rfl

/-- test5.output: the statement begins three lines before the error. -/
example : (endOf cs!"policy_module(test5, 1.0)\n\n\nallow\n\tsource\ntarget\n  clas\n").syntaxErrors
    cs!"end of file" 8 =
      [(7, cs!"syntax error, unexpected STRING, expecting COLON or SEMICOLON"),
        (4, cs!"Error: Invalid statement")] := by
  with_unfolding_all rfl

/-- test8.te and test8.output, second message. -/
example : (endOf cs!"policy_module(test8, 1.0)\n\ndontaudit system_r auditadm_r;\n").actionErrors =
    [(3, cs!"Error: Invalid statement")] := by
  with_unfolding_all rfl

/-- test9.te and test9.output: the error is the end of the text. -/
example : (endOf cs!"policy_module(test9, 1.0)\n\nifdef(\n").syntaxErrors cs!"end of file" 4 =
    [(4, cs!"syntax error, unexpected end of file, expecting BACKTICK"),
      (3, cs!"Error: Invalid statement")] := by
  with_unfolding_all rfl

/-- Nothing is named where many tokens may come. -/
example : (endOf cs!"policy_module(foo, 1.0)\ntype a;\n)\n").syntaxErrors cs!"end of file" 4 =
    [(3, cs!"syntax error, unexpected CLOSE_PAREN"), (3, cs!"Error: Invalid statement")] := by
  with_unfolding_all rfl

/-- **C98 (not all).** The message need not name all tokens that may come, even if there is room: in
`test2.te` only the end of the text is named, but `policy_module` may come there as well. -/
theorem C98_incomplete : ∃ d ts n, DriveReaches (Drive.start ⟨fun _ => none, 0⟩ .teFile cs!"m" {} ts) d ∧
    ErrorAfter n (termsOf ts) ∧
    d.syntaxErrors cs!"end of file" 3 =
      [(2, cs!"syntax error, unexpected ALLOW, expecting end of file")] ∧
    MayFollow ((termsOf ts).take n) (.kw .policyModule) := by
  refine ⟨endOf test2, (lexFile test2).getD [], 1, driveTo_reaches 200 .refl, ?_, test2_messages, ?_⟩
  · obtain ⟨e, he, hs⟩ : ∃ e, (endOf test2).l.c.look = some e ∧ e.sym = .t (.kw .allow) :=
      ⟨⟨.t (.kw .allow), .none⟩, by with_unfolding_all rfl, rfl⟩
    obtain ⟨s, rest, hst, ha⟩ : ∃ s rest, (endOf test2).states = s :: rest ∧
        lalrAction s (Term.code (.kw .allow)) = none :=
      ⟨(endOf test2).states.head?.getD 0, (endOf test2).states.tail, by with_unfolding_all rfl,
        by with_unfolding_all rfl⟩
    obtain ⟨n, hn, hin, -⟩ := C97_place (driveTo_reaches 200 .refl) he hst (by rw [hs]; exact ha)
    have h₁ : (endOf test2).input.length = 2 := by with_unfolding_all rfl
    have h₂ : ((lexFile test2).getD []).length = 4 := by with_unfolding_all rfl
    have h₃ := congrArg List.length hin
    have h₄ : (endOf test2).input.length = ((lexFile test2).getD []).length - (n + 1) := by
      rw [← List.length_drop]
      exact h₃
    have : n = 1 := by omega
    rw [← this]
    exact hn
  · refine .inr ⟨nofun, ?_⟩
    let good : Str := cs!"# Comment\npolicy_module(foo, 1.0)\ntype a;\n"
    have hs : Sentence (termsOf ((lexFile good).getD [])) := by
      refine C97_accepted (m₀ := ⟨fun _ => none, 0⟩) (expected := .teFile) (mod := cs!"m")
        (maps := {}) (d := endOf good) (driveTo_reaches 200 .refl) ?_
      with_unfolding_all rfl
    exact ⟨(termsOf ((lexFile good).getD [])).drop 2, by with_unfolding_all exact hs⟩

end Selint
