import Verif.Lemmas.Location
import Verif.Props.Lex
import Verif.Props.Parse
/-!
# C65: line numbers; the theorems about the parser for texts

`f.At ts` says that `f` is a derivation of the tokens `ts` that the scanner delivers, with the
lines bison gives to its productions (`Model/Location.lean`).
-/

namespace Selint
open Spec

theorem Spec.Scans.sorted {rules : List LexRule} {n : Nat} {s : Str} {ts : Located} (h : Scans rules n s ts) :
    ts.Sorted ∧ ∀ l ∈ ts.lines, n ≤ l ∧ l ≤ n + s.count '\n' := by
  induction h with
  | nil => exact ⟨.nil, by simp [Located.lines]⟩
  | skip _ _ _ _ ih =>
    refine ⟨ih.1, fun l hl => ?_⟩
    have := ih.2 l hl
    simp only [List.count_append]
    omega
  | @token n i r text rest t ts _ _ _ _ ih =>
    refine ⟨List.pairwise_cons.2 ⟨fun l hl => (ih.2 l hl).1, ih.1⟩, fun l hl => ?_⟩
    simp only [List.count_append]
    rcases List.mem_cons.1 hl with rfl | hl
    · simp only; omega
    · have := ih.2 l hl; omega

/-- The tokens of a file are in the order of their lines, which are lines of the file. -/
theorem C48_sorted {s : Str} {ts : Located} (h : lexFile s = some ts) :
    ts.Sorted ∧ ∀ l ∈ ts.lines, 1 ≤ l ∧ l ≤ 1 + s.count '\n' := by
  obtain ⟨ts', h₁, h₂, _⟩ := C48_total s
  rw [h] at h₁; cases h₁
  exact h₂.sorted

/-- `f` is a derivation of the text. -/
def Spec.ParsesTo (s : Str) (f : SourceFile) : Prop := ∃ ts, lexFile s = some ts ∧ f.At ts

theorem Spec.ParsesTo.tokens {s : Str} {f : SourceFile} (h : ParsesTo s f) :
    CommandsOk f.tokens ∧ NamesOk f.tokens := by
  obtain ⟨ts, h₁, h₂⟩ := h
  have := C48_tokens h₁
  rwa [show ts.map Prod.snd = f.tokens from f.at_toks h₂] at this

/-- **C65.** In the tree of an accepted file, the nodes after the root, in document order, have
line numbers that never decrease, and each of them is the line of a token of the text. -/
theorem C65_order {s : Str} {f : SourceFile} {ts : Located} (hl : lexFile s = some ts) (ha : f.At ts)
    {expected : PlainFlavor} {mod : Str} {m : Maps} {st : PState}
    (h : f.exec expected mod m = .ok (some st)) :
    ∃ root rest, Tree.preorderList st.loc.unzip = root :: rest ∧ root.lineno = 0 ∧
      (rest.map NodeInfo.lineno).Pairwise (· ≤ ·) ∧
      ∀ i ∈ rest, (∃ t, (i.lineno, t) ∈ ts) ∧ 1 ≤ i.lineno ∧ i.lineno ≤ 1 + s.count '\n' := by
  have hp : ParsesTo s f := ⟨ts, hl, ha⟩
  obtain ⟨_, _, hn⟩ := C12_tree hp.tokens.1 h
  obtain ⟨ns, e, hz⟩ := hn []
  obtain ⟨L, e', hw⟩ := SourceFile.addsLines ha (C48_sorted hl).1 expected
    (st.rets.map (fun e => decide (e = .success)) ++ [])
  rw [e, ← hz] at e'
  cases hpre : Tree.preorderList st.loc.unzip with
  | nil => simp [nodeLines, hpre] at e'
  | cons root rest =>
    simp only [nodeLines, hpre, List.map_cons, List.cons.injEq] at e'
    obtain ⟨e₀, rfl⟩ := e'
    refine ⟨root, rest, rfl, e₀, hw.sorted, fun i hi => ?_⟩
    have hm := hw.mem _ (List.mem_map_of_mem hi)
    refine ⟨?_, (C48_sorted hl).2 _ hm⟩
    obtain ⟨⟨l, t⟩, hlt, e⟩ := List.mem_map.1 hm
    exact ⟨t, by rw [← e]; exact hlt⟩

/-- The statements whose node gets the line of its first token: all simple statements, and the
blocks of `optional_policy`, `gen_require` and `if`. -/
def Spec.lineOfFirst : Stmt → Bool
  | .simple .. => true
  | .optional .. => true
  | .optionalEmpty .. => true
  | .genRequire .. => true
  | .genRequireUnquoted .. => true
  | .boolean .. => true
  | .booleanElse .. => true
  | _ => false

/-- **C65 (first token).** The node of such a statement, and the nodes of its aliases, have the
line of the first token of the statement. -/
theorem C65_first {d : Stmt} (hd : lineOfFirst d = true) {ts : Located} (h : d.At ts) :
    ∃ t, stmtNodes d = [t] ∧ ts.first = some t.info.lineno := by
  have hfirst : ∀ {o r : Located} {line : Nat}, o.first = some line → Located.first (o ++ r) = some line := by
    intro o r line ho
    unfold Located.first at *
    rw [Located.lines_append, List.head?_append, ho]
    rfl
  cases d with
  | simple line s => exact ⟨_, rfl, h.2⟩
  | optional line cmd body =>
    simp only [Stmt.At] at h
    obtain ⟨o, b, c, rfl, h₁, _⟩ := h
    exact ⟨_, rfl, by rw [List.append_assoc]; exact hfirst h₁.2⟩
  | optionalEmpty line cmd =>
    simp only [Stmt.At] at h
    obtain ⟨o, c, rfl, h₁, _⟩ := h
    exact ⟨_, rfl, hfirst h₁.2⟩
  | genRequire line cmd cmd' body =>
    simp only [Stmt.At] at h
    obtain ⟨o, m, b, c, rfl, h₁, _⟩ := h
    exact ⟨_, rfl, by rw [List.append_assoc, List.append_assoc]; exact hfirst h₁.2⟩
  | genRequireUnquoted line cmd body =>
    simp only [Stmt.At] at h
    obtain ⟨o, b, c, rfl, h₁, _⟩ := h
    exact ⟨_, rfl, by rw [List.append_assoc]; exact hfirst h₁.2⟩
  | boolean line cmd cond body =>
    simp only [Stmt.At] at h
    obtain ⟨o, m, b, c, rfl, h₁, _⟩ := h
    exact ⟨_, rfl, by rw [List.append_assoc, List.append_assoc]; exact hfirst h₁.2⟩
  | booleanElse line cmd cond body els =>
    simp only [Stmt.At] at h
    obtain ⟨o, m, b, n, e, c, rfl, h₁, _⟩ := h
    exact ⟨_, rfl, by simp only [List.append_assoc]; exact hfirst h₁.2⟩
  | _ => cases hd

/-! ## A text -/

/-- A text with a statement of every position: its `ifdef` begins on line 3, but its comma is
on line 4. -/
def sourceText : Str :=
  cs!"policy_module(foo, 1.0)\n\nifdef(`x'\n,`\n\ttype foo_t alias bar_t; #selint-disable:W-001\n')\n"

/-- Its derivation. -/
def sourceFile : SourceFile :=
  .te [] ⟨1, cs!"foo", true, false, cs!"1.0"⟩
    (.one (.bare (.ifdef 4 false cs!"x" (.one 4 (.quoted (.one (.withCommand
      (.simple 5 (.decl (.typeAlias cs!"foo_t" (.item (.word cs!"bar_t"))))) cs!"#selint-disable:W-001")))))))

/-- Its tokens. -/
def sourceTokens : Located :=
  [(1, .kw .policyModule), (1, tOpen), (1, .string cs!"foo"), (1, tComma), (1, .versionNo cs!"1.0"),
    (1, tClose), (3, .kw .ifdef), (3, tOpen), (3, tTick), (3, .string cs!"x"), (3, tQuote), (4, tComma),
    (4, tTick), (5, .kw .type), (5, .string cs!"foo_t"), (5, .kw .alias), (5, .string cs!"bar_t"),
    (5, tSemi), (5, .command cs!"#selint-disable:W-001"), (6, tQuote), (6, tClose)]

theorem source_lex : lexFile sourceText = some sourceTokens := by decide +kernel

theorem source_at : sourceFile.At sourceTokens := by
  refine ⟨sourceTokens.take 6, sourceTokens.drop 6, rfl, ⟨rfl, rfl⟩, ?_⟩
  simp only [Lines.At, Line.At, Stmt.At, M4Args.At, M4Argument.At]
  refine ⟨(sourceTokens.drop 6).take 6, (sourceTokens.drop 12).take 8, [(6, tClose)], rfl, rfl, rfl,
    ⟨trivial, 4, 6, (sourceTokens.drop 13).take 6, rfl, (sourceTokens.drop 13).take 5, 5, rfl, rfl, rfl⟩, rfl⟩

/-- The text is accepted, and the line numbers of its tree are these. -/
example : ∃ st, sourceFile.exec .teFile cs!"foo" {} = .ok (some st) ∧
    (Tree.preorderList st.loc.unzip).map (fun i => i.lineno) = [0, 1, 4, 4, 4, 4, 5, 5] :=
  ⟨_, by with_unfolding_all rfl, by with_unfolding_all rfl⟩

/-- **C65, not for all blocks.** The node of an `ifdef` need not have the line on which the
statement begins: in `sourceText` that is line 3, the node says 4. (The same holds for
`require`, `ifelse`, `tunable_policy`, `define` and the else part of `optional_policy`, whose
actions run in the middle of the production.) -/
theorem C65_false_ifdef :
    ∃ (d : Stmt) (ts : Located) (t : Tree), d.At ts ∧ stmtNodes d = [t] ∧ ts.first = some 3 ∧
      t.info.lineno = 4 := by
  refine ⟨.ifdef 4 false cs!"x" (.one 4 .empty), (sourceTokens.drop 6).take 6 ++ [(6, tClose)], _, ?_, rfl,
    rfl, rfl⟩
  simp only [Stmt.At, M4Args.At, M4Argument.At]
  exact ⟨(sourceTokens.drop 6).take 6, [], [(6, tClose)], rfl, rfl, rfl, ⟨trivial, rfl⟩, rfl⟩

example : ParsesTo sourceText sourceFile := ⟨_, source_lex, source_at⟩

/-! ## C12 for texts -/

/-- **C12 (texts)**: `C12_tree` and `C12_shape` for a text, without conditions on its tokens. -/
theorem C12_text {s : Str} {f : SourceFile} (hp : ParsesTo s f) {expected : PlainFlavor} {mod : Str} {m : Maps}
    {st : PState} (h : f.exec expected mod m = .ok (some st)) :
    st.loc.ups = [] ∧ st.loc.rights = [] ∧
      (∀ more, ∃ ns, buildFile f expected (st.rets.map (fun e => decide (e = .success)) ++ more) =
        ⟨ns, more⟩ ∧ st.loc.unzip = ns.reverse) ∧
      (∀ cs hd body, f = .te cs hd body → expected = .teFile →
        ∃ root rest, st.loc.unzip = root :: rest ∧ TeFile ⟨root, [], rest, []⟩) := by
  obtain ⟨h₁, h₂, h₃⟩ := C12_tree hp.tokens.1 h
  refine ⟨h₁, h₂, h₃, ?_⟩
  rintro cs hd body rfl rfl
  exact C12_shape hp.tokens.1 hp.tokens.2 h

end Selint
