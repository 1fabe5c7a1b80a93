import Verif.Props.Lex
import Verif.Props.Source
import Verif.Spec.Parse

/-! # Names of declarations contain no NUL character -/

namespace Selint
open Spec

/-- A word among the tokens contains no NUL character. -/
def Token.Clean : Token → Prop
  | .string s => '\x00' ∉ s
  | _ => True

/-- No word among the tokens contains a NUL character. -/
def TokensClean (ts : List Token) : Prop := ∀ t ∈ ts, t.Clean

namespace TokensClean

@[simp] theorem append {a b : List Token} : TokensClean (a ++ b) ↔ TokensClean a ∧ TokensClean b := by
  simp [TokensClean, or_imp, forall_and]

@[simp] theorem cons {t : Token} {b : List Token} : TokensClean (t :: b) ↔ t.Clean ∧ TokensClean b := by
  simp [TokensClean]

@[simp] theorem flatMap {α : Type} {f : α → List Token} {l : List α} :
    TokensClean (l.flatMap f) ↔ ∀ a ∈ l, TokensClean (f a) := by
  simp only [TokensClean, List.mem_flatMap]
  exact ⟨fun h a ha t ht => h t ⟨a, ha, ht⟩, fun h t ⟨a, ha, ht⟩ => h a ha t ht⟩

end TokensClean

/-- What the scanner calls a word contains no NUL character. -/
theorem lexFile_clean {s : Str} {ts : List (Nat × Token)} (h : lexFile s = some ts) : TokensClean (ts.map Prod.snd) := by
  intro t ht
  obtain ⟨⟨l, t⟩, hm, rfl⟩ := List.mem_map.1 ht
  obtain ⟨_, text, rest, _, _, _, hs⟩ := C48_line h hm
  obtain ⟨_, _, i, r, hk, ha⟩ := lexStep_takes hs
  obtain ⟨hr, c, hm, _⟩ := hk
  have htt : Texts r.rx text := by cases hm <;> assumption
  have ht : r.act text = some t := ha.symm
  have hr' := ruleAt hr
  show t.Clean
  cases hr' with
  | @kw j k h hj => cases ht; trivial
  | @punct j p h => cases ht; trivial
  | space => cases ht
  | dnl => cases ht
  | unknown =>
    cases text with
    | nil => cases ht
    | cons d s => cases ht; trivial
  | string => cases ht; exact avoids_texts (c := '\x00') htt (by decide)
  | _ => cases ht; trivial

/-- The names of the declarations of a forest contain no NUL character. -/
def DeclsClean (ts : List Tree) : Prop := ∀ i ∈ Tree.preorderList ts, ∀ d, i.data = .decl d → '\x00' ∉ d.name

namespace DeclsClean

theorem nil : DeclsClean [] := by intro i hi; cases hi

theorem cons {t : Tree} {ts : List Tree} : DeclsClean (t :: ts) ↔ DeclsClean [t] ∧ DeclsClean ts := by
  simp [DeclsClean, Tree.preorderList, or_imp, forall_and]

theorem append {a b : List Tree} : DeclsClean (a ++ b) ↔ DeclsClean a ∧ DeclsClean b := by
  induction a with
  | nil => simp [nil]
  | cons t ts ih => rw [List.cons_append, cons, ih, cons (t := t) (ts := ts), and_assoc]

theorem all {ts : List Tree} : DeclsClean ts ↔ ∀ t ∈ ts, DeclsClean [t] := by
  induction ts with
  | nil => simp [nil]
  | cons t ts ih => rw [cons, ih]; simp

theorem node {i : NodeInfo} {cs : List Tree} :
    DeclsClean [.mk i cs] ↔ (∀ d, i.data = .decl d → '\x00' ∉ d.name) ∧ DeclsClean cs := by
  simp [DeclsClean, Tree.preorderList, Tree.preorder, or_imp, forall_and]

theorem leaf {data : NodeData} {line : Nat} (h : ∀ d, data = .decl d → '\x00' ∉ d.name) :
    DeclsClean [Spec.leaf data line] := node.2 ⟨h, nil⟩

theorem block {data : NodeData} {line : Nat} {cs : List Tree} (hd : ∀ d, data ≠ .decl d) (h : DeclsClean cs) :
    DeclsClean [blockNode data line cs] :=
  node.2 ⟨fun d e => absurd e (hd d), cons.2 ⟨leaf (by intro d e; cases e), h⟩⟩

end DeclsClean

theorem CommaList.clean {l : CommaList} (h : TokensClean l.tokens) : ∀ n ∈ l.value, '\x00' ∉ n := by
  simp only [CommaList.tokens, TokensClean.cons, TokensClean.flatMap] at h
  intro n hn
  rcases List.mem_cons.1 hn with rfl | hn
  · exact h.1
  · exact (h.2 n hn).2.1

theorem declData_clean {d : Decl} (h : TokensClean d.tokens) : '\x00' ∉ (declData d).name := by
  cases d <;> simp only [Decl.tokens, TokensClean.cons, TokensClean.append] at h <;>
    first | exact h.2.1 | exact h.2.2.1 | exact h.2.2.2.1

theorem simple_clean {s : Simple} (line : Nat) (h : TokensClean s.tokens) : DeclsClean [simpleNode line s] := by
  refine DeclsClean.node.2 ⟨?_, ?_⟩
  · intro d e
    cases s with
    | decl d' =>
      have e : NodeData.decl (declData d') = .decl d := e
      cases e
      exact declData_clean h
    | call n a => cases a <;> cases e
    | _ => cases e
  · refine DeclsClean.all.2 fun t ht => ?_
    obtain ⟨a, _, rfl⟩ := List.mem_map.1 ht
    exact DeclsClean.leaf (by intro d e; cases e)

mutual
theorem reqLines_clean : ∀ d : ReqLines, TokensClean d.tokens → DeclsClean (reqLinesNodes d)
  | .one l, h => by
    simp only [ReqLines.tokens] at h
    simpa only [reqLinesNodes] using reqLine_clean l h
  | .more ls l, h => by
    simp only [ReqLines.tokens, TokensClean.append] at h
    simpa only [reqLinesNodes] using DeclsClean.append.2 ⟨reqLines_clean ls h.1, reqLine_clean l h.2⟩
theorem reqLine_clean : ∀ d : ReqLine, TokensClean d.tokens → DeclsClean (reqLineNodes d)
  | .bare s, h => by
    simp only [ReqLine.tokens] at h
    simpa only [reqLineNodes] using reqStmt_clean s h
  | .withCommand s _, h => by
    simp only [ReqLine.tokens, TokensClean.append] at h
    simpa only [reqLineNodes] using reqStmt_clean s h.1
theorem reqStmt_clean : ∀ d : ReqStmt, TokensClean d.tokens → DeclsClean (reqStmtNodes d)
  | .decls line fl _ _ names, h => by
    simp only [ReqStmt.tokens, TokensClean.cons, TokensClean.append] at h
    simp only [reqStmtNodes]
    refine DeclsClean.all.2 fun t ht => ?_
    obtain ⟨n, hn, rfl⟩ := List.mem_map.1 ht
    exact DeclsClean.leaf (by intro d e; cases e; exact CommaList.clean h.2.1 n hn)
  | .cls line n l, h => by
    simp only [ReqStmt.tokens, TokensClean.cons] at h
    simp only [reqStmtNodes]
    exact DeclsClean.leaf (by intro d e; cases e; exact h.2.1)
  | .ifdef line _ q _ body, h => by
    have h : TokensClean body.tokens := by
      simp only [ReqStmt.tokens, TokensClean.append] at h
      have h := h.1.2
      split at h
      · simp only [TokensClean.cons, TokensClean.append] at h; exact h.2.1
      · exact h
    simp only [reqStmtNodes]
    exact DeclsClean.block (by intro d e; cases e) (reqLines_clean body h)
  | .comment, _ => by simp only [reqStmtNodes]; exact DeclsClean.nil
end

mutual
theorem lines_clean : ∀ d : Lines, TokensClean d.tokens → DeclsClean (linesNodes d)
  | .one l, h => by
    simp only [Lines.tokens] at h
    simpa only [linesNodes] using line_clean l h
  | .more ls l, h => by
    simp only [Lines.tokens, TokensClean.append] at h
    simpa only [linesNodes] using DeclsClean.append.2 ⟨lines_clean ls h.1, line_clean l h.2⟩
theorem line_clean : ∀ d : Line, TokensClean d.tokens → DeclsClean (lineNodes d)
  | .bare s, h => by
    simp only [Line.tokens] at h
    simpa only [lineNodes] using stmt_clean s h
  | .withCommand s _, h => by
    simp only [Line.tokens, TokensClean.append] at h
    simpa only [lineNodes] using stmt_clean s h.1
theorem stmt_clean : ∀ d : Stmt, TokensClean d.tokens → DeclsClean (stmtNodes d)
  | .silent _, _ => by simp only [stmtNodes]; exact DeclsClean.nil
  | .simple line s, h => by simp only [stmtNodes]; exact simple_clean line (by simpa only [Stmt.tokens] using h)
  | .optional line _ body, h => by
    simp only [Stmt.tokens, TokensClean.append] at h
    simp only [stmtNodes]
    exact DeclsClean.block (by intro d e; cases e) (lines_clean body h.1.2)
  | .optionalEmpty line _, h => by
    simp only [stmtNodes]
    exact DeclsClean.block (by intro d e; cases e) DeclsClean.nil
  | .optionalElse line _ body elseLine els, h => by
    simp only [Stmt.tokens, TokensClean.append] at h
    simp only [stmtNodes]
    exact DeclsClean.cons.2 ⟨DeclsClean.block (by intro d e; cases e) (lines_clean body h.1.1.1.2),
      DeclsClean.block (by intro d e; cases e) (lines_clean els h.1.2)⟩
  | .genRequire line _ _ body, h => by
    simp only [Stmt.tokens, TokensClean.append, TokensClean.cons] at h
    simp only [stmtNodes]
    exact DeclsClean.block (by intro d e; cases e) (reqLines_clean body h.1.2)
  | .genRequireUnquoted line _ body, h => by
    simp only [Stmt.tokens, TokensClean.append] at h
    simp only [stmtNodes]
    exact DeclsClean.block (by intro d e; cases e) (reqLines_clean body h.1.2)
  | .require line _ body, h => by
    simp only [Stmt.tokens, TokensClean.append] at h
    simp only [stmtNodes]
    exact DeclsClean.block (by intro d e; cases e) (reqLines_clean body h.1.2)
  | .ifdef line _ _ args, h => by
    simp only [Stmt.tokens, TokensClean.append] at h
    simp only [stmtNodes]
    exact DeclsClean.block (by intro d e; cases e) (args_clean args h.1.2)
  | .ifelse line args, h => by
    simp only [Stmt.tokens, TokensClean.append] at h
    simp only [stmtNodes]
    exact DeclsClean.block (by intro d e; cases e) (args_clean args h.1.2)
  | .userdebugOrEng body, h => by
    simp only [Stmt.tokens, TokensClean.append] at h
    simpa only [stmtNodes] using lines_clean body h.1.2
  | .tunable line _ _ args, h => by
    simp only [Stmt.tokens, TokensClean.append, TokensClean.cons] at h
    simp only [stmtNodes]
    exact DeclsClean.block (by intro d e; cases e) (args_clean args h.1.2.2)
  | .boolean line _ _ body, h => by
    simp only [Stmt.tokens, TokensClean.append] at h
    simp only [stmtNodes]
    exact DeclsClean.block (by intro d e; cases e) (lines_clean body h.1.2)
  | .booleanElse line _ _ body els, h => by
    simp only [Stmt.tokens, TokensClean.append] at h
    simp only [stmtNodes]
    exact DeclsClean.block (by intro d e; cases e)
      (DeclsClean.append.2 ⟨lines_clean body h.1.1.1.2, lines_clean els h.1.2⟩)
  | .define line _ _ _, _ => by
    simp only [stmtNodes]
    exact DeclsClean.block (by intro d e; cases e) DeclsClean.nil
theorem args_clean : ∀ d : M4Args, TokensClean d.tokens → DeclsClean (argsNodes d)
  | .one line a, h => by
    simp only [M4Args.tokens] at h
    simp only [argsNodes]
    exact DeclsClean.block (by intro d e; cases e) (arg_clean a h)
  | .more as line a, h => by
    simp only [M4Args.tokens, TokensClean.append, TokensClean.cons] at h
    simp only [argsNodes]
    exact DeclsClean.append.2 ⟨args_clean as h.1, DeclsClean.block (by intro d e; cases e) (arg_clean a h.2.2)⟩
theorem arg_clean : ∀ d : M4Argument, TokensClean d.tokens → DeclsClean (argNodes d)
  | .empty, _ => by simp only [argNodes]; exact DeclsClean.nil
  | .emptyQuoted, _ => by simp only [argNodes]; exact DeclsClean.nil
  | .quoted body, h => by
    simp only [M4Argument.tokens, TokensClean.cons, TokensClean.append] at h
    simpa only [argNodes] using lines_clean body h.2.1
  | .word _, _ => by simp only [argNodes]; exact DeclsClean.nil
end

theorem ifDef_clean {d : IfDef} (h : TokensClean d.tokens) : DeclsClean [ifDefNode d] := by
  simp only [IfDef.tokens, TokensClean.append] at h
  unfold ifDefNode
  refine DeclsClean.block (by intro d e; cases e) ?_
  have h := h.1.2
  cases hb : d.body with
  | none => exact DeclsClean.nil
  | some b => rw [hb] at h; exact lines_clean b h

theorem comments_clean (cs : List Nat) : DeclsClean (cs.map (leaf (.plain .comment none))) := by
  refine DeclsClean.all.2 fun t ht => ?_
  obtain ⟨a, _, rfl⟩ := List.mem_map.1 ht
  exact DeclsClean.leaf (by intro d e; cases e)

/-- The names declared in a file contain no NUL character. -/
theorem file_clean {e : PlainFlavor} {f : SourceFile} (h : TokensClean f.tokens) : DeclsClean (fileNodes e f) := by
  have hroot : ∀ {fl : PlainFlavor}, DeclsClean [leaf (.plain fl none) 0] := fun {_} =>
    DeclsClean.leaf (by intro d e; cases e)
  cases f with
  | empty => exact hroot
  | te cs hd b =>
    simp only [SourceFile.tokens, TokensClean.append] at h
    exact DeclsClean.cons.2 ⟨hroot, DeclsClean.append.2 ⟨comments_clean cs,
      DeclsClean.cons.2 ⟨DeclsClean.leaf (by intro d e; cases e), lines_clean b h.2⟩⟩⟩
  | iface cs d ls =>
    simp only [SourceFile.tokens, TokensClean.append, TokensClean.flatMap] at h
    refine DeclsClean.cons.2 ⟨hroot, DeclsClean.append.2 ⟨comments_clean cs,
      DeclsClean.cons.2 ⟨ifDef_clean h.1.2, DeclsClean.all.2 fun t ht => ?_⟩⟩⟩
    obtain ⟨a, ha, rfl⟩ := List.mem_map.1 ht
    cases a with
    | defn d => exact ifDef_clean (h.2 _ ha)
    | comment n => exact DeclsClean.leaf (by intro d e; cases e)
  | spt cs _ _ => exact DeclsClean.cons.2 ⟨hroot, comments_clean cs⟩
  | av cs _ _ => exact DeclsClean.cons.2 ⟨hroot, comments_clean cs⟩
  | comments c cs => exact DeclsClean.cons.2 ⟨hroot, comments_clean (c :: cs)⟩

/-- The names declared in a text that is read contain no NUL character. -/
theorem Spec.ParsesTo.clean {s : Str} {f : SourceFile} (h : ParsesTo s f) (e : PlainFlavor) : DeclsClean (fileNodes e f) := by
  obtain ⟨ts, hl, ha⟩ := h
  have := lexFile_clean hl
  rw [show ts.map Prod.snd = f.tokens from f.at_toks ha] at this
  exact file_clean this

end Selint
