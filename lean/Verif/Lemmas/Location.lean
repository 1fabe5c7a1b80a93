import Verif.Model.Location
import Verif.Spec.Parse
import Verif.Spec.Tree
/-! # Line numbers of nodes -/

namespace Selint
open Spec

/-! ## The tokens -/

theorem Located.toks_append (a b : Located) : Located.toks (a ++ b) = a.toks ++ b.toks := by
  simp [Located.toks]

theorem Located.lines_append (a b : Located) : Located.lines (a ++ b) = a.lines ++ b.lines := by
  simp [Located.lines]

mutual
theorem ReqLines.at_toks : ∀ (d : ReqLines) {ts : Located}, d.At ts → ts.toks = d.tokens
  | .one l, ts, h => by
    simp only [ReqLines.At] at h
    simpa only [ReqLines.tokens] using l.at_toks h
  | .more ls l, ts, h => by
    simp only [ReqLines.At] at h
    obtain ⟨a, b, rfl, h₁, h₂⟩ := h
    simp only [ReqLines.tokens, Located.toks_append, ls.at_toks h₁, l.at_toks h₂]
theorem ReqLine.at_toks : ∀ (d : ReqLine) {ts : Located}, d.At ts → ts.toks = d.tokens
  | .bare s, ts, h => by
    simp only [ReqLine.At] at h
    simpa only [ReqLine.tokens] using s.at_toks h
  | .withCommand s c, ts, h => by
    simp only [ReqLine.At] at h
    obtain ⟨a, n, rfl, h₁⟩ := h
    simp only [ReqLine.tokens, Located.toks_append, s.at_toks h₁]
    rfl
theorem ReqStmt.at_toks : ∀ (d : ReqStmt) {ts : Located}, d.At ts → ts.toks = d.tokens
  | .decls .., ts, h => by simp only [ReqStmt.At] at h; simpa only [ReqStmt.tokens] using h.1
  | .cls .., ts, h => by simp only [ReqStmt.At] at h; simpa only [ReqStmt.tokens] using h.1
  | .ifdef _ _ q _ body, ts, h => by
    simp only [ReqStmt.At] at h
    obtain ⟨o, b, c, rfl, h₁, h₂, h₃, h₄⟩ := h
    simp only [ReqStmt.tokens, Located.toks_append, body.at_toks h₃, h₁, h₄]
    cases q <;> simp
  | .comment, ts, h => by simp only [ReqStmt.At] at h; simpa only [ReqStmt.tokens] using h
end

mutual
theorem Lines.at_toks : ∀ (d : Lines) {ts : Located}, d.At ts → ts.toks = d.tokens
  | .one l, ts, h => by
    simp only [Lines.At] at h
    simpa only [Lines.tokens] using l.at_toks h
  | .more ls l, ts, h => by
    simp only [Lines.At] at h
    obtain ⟨a, b, rfl, h₁, h₂⟩ := h
    simp only [Lines.tokens, Located.toks_append, ls.at_toks h₁, l.at_toks h₂]
theorem Line.at_toks : ∀ (d : Line) {ts : Located}, d.At ts → ts.toks = d.tokens
  | .bare s, ts, h => by
    simp only [Line.At] at h
    simpa only [Line.tokens] using s.at_toks h
  | .withCommand s c, ts, h => by
    simp only [Line.At] at h
    obtain ⟨a, n, rfl, h₁⟩ := h
    simp only [Line.tokens, Located.toks_append, s.at_toks h₁]
    rfl
theorem Stmt.at_toks : ∀ (d : Stmt) {ts : Located}, d.At ts → ts.toks = d.tokens
  | .silent _, ts, h => by simp only [Stmt.At] at h; simpa only [Stmt.tokens] using h
  | .simple .., ts, h => by simp only [Stmt.At] at h; simpa only [Stmt.tokens] using h.1
  | .optional _ _ body, ts, h => by
    simp only [Stmt.At] at h
    obtain ⟨o, b, c, rfl, h₁, h₂, h₃⟩ := h
    simp only [Stmt.tokens, Located.toks_append, body.at_toks h₂, h₁.1, h₃]
  | .optionalEmpty .., ts, h => by
    simp only [Stmt.At] at h
    obtain ⟨o, c, rfl, h₁, h₃⟩ := h
    simp only [Stmt.tokens, Located.toks_append, h₁.1, h₃]
  | .optionalElse _ _ body _ els, ts, h => by
    simp only [Stmt.At] at h
    obtain ⟨o, b, m, e, c, rfl, h₁, h₂, h₃, _, h₄, h₅⟩ := h
    simp only [Stmt.tokens, Located.toks_append, body.at_toks h₂, els.at_toks h₄, h₁.1, h₃, h₅]
  | .genRequire _ _ _ body, ts, h => by
    simp only [Stmt.At] at h
    obtain ⟨o, m, b, c, rfl, h₁, h₂, h₃, h₄⟩ := h
    simp only [Stmt.tokens, Located.toks_append, body.at_toks h₃, h₁.1, h₂, h₄]
  | .genRequireUnquoted _ _ body, ts, h => by
    simp only [Stmt.At] at h
    obtain ⟨o, b, c, rfl, h₁, h₂, h₃⟩ := h
    simp only [Stmt.tokens, Located.toks_append, body.at_toks h₂, h₁.1, h₃]
  | .require _ _ body, ts, h => by
    simp only [Stmt.At] at h
    obtain ⟨o, b, c, rfl, h₁, _, h₂, h₃⟩ := h
    simp only [Stmt.tokens, Located.toks_append, body.at_toks h₂, h₁, h₃]
  | .ifdef _ _ _ args, ts, h => by
    simp only [Stmt.At] at h
    obtain ⟨o, b, c, rfl, h₁, _, h₂, h₃⟩ := h
    simp only [Stmt.tokens, Located.toks_append, args.at_toks h₂, h₁, h₃]
  | .ifelse _ args, ts, h => by
    simp only [Stmt.At] at h
    obtain ⟨o, b, c, rfl, h₁, _, h₂, h₃⟩ := h
    simp only [Stmt.tokens, Located.toks_append, args.at_toks h₂, h₁, h₃]
  | .userdebugOrEng body, ts, h => by
    simp only [Stmt.At] at h
    obtain ⟨o, b, c, rfl, h₁, h₂, h₃⟩ := h
    simp only [Stmt.tokens, Located.toks_append, body.at_toks h₂, h₁, h₃]
  | .tunable _ q _ args, ts, h => by
    simp only [Stmt.At] at h
    obtain ⟨o, m, b, c, p, rfl, h₁, _, h₂, _, h₃, h₄⟩ := h
    simp only [Stmt.tokens, Located.toks_append, args.at_toks h₃, h₁, h₂, h₄]
    cases q <;> simp
  | .boolean _ _ _ body, ts, h => by
    simp only [Stmt.At] at h
    obtain ⟨o, m, b, c, rfl, h₁, h₂, h₃, h₄⟩ := h
    simp only [Stmt.tokens, Located.toks_append, body.at_toks h₃, h₁.1, h₂, h₄]
    simp
  | .booleanElse _ _ _ body els, ts, h => by
    simp only [Stmt.At] at h
    obtain ⟨o, m, b, n, e, c, rfl, h₁, h₂, h₃, h₄, h₅, h₆⟩ := h
    simp only [Stmt.tokens, Located.toks_append, body.at_toks h₃, els.at_toks h₅, h₁.1, h₂, h₄, h₆]
    simp
  | .define .., ts, h => by
    simp only [Stmt.At] at h
    obtain ⟨o, c, rfl, h₁, _, h₂⟩ := h
    simp only [Stmt.tokens, Located.toks_append, h₁, h₂]
    simp
theorem M4Args.at_toks : ∀ (d : M4Args) {prev : Nat} {ts : Located}, d.At prev ts → ts.toks = d.tokens
  | .one _ a, _, ts, h => by
    simp only [M4Args.At] at h
    simpa only [M4Args.tokens] using a.at_toks h.2
  | .more as _ a, _, ts, h => by
    simp only [M4Args.At] at h
    obtain ⟨x, y, rfl, h₁, h₂⟩ := h
    have := a.at_toks h₂
    simp only [M4Args.tokens, Located.toks_append, as.at_toks h₁]
    simp only [Located.toks, List.map_cons] at this ⊢
    rw [this]
theorem M4Argument.at_toks : ∀ (d : M4Argument) {ts : Located}, d.At ts → ts.toks = d.tokens
  | .empty, ts, h => by simp only [M4Argument.At] at h; subst h; simp [M4Argument.tokens, Located.toks]
  | .emptyQuoted, ts, h => by simp only [M4Argument.At] at h; simpa only [M4Argument.tokens] using h
  | .quoted body, ts, h => by
    simp only [M4Argument.At] at h
    obtain ⟨m, n, b, rfl, h₁⟩ := h
    have := body.at_toks h₁
    simp only [Located.toks] at this
    simp [M4Argument.tokens, Located.toks, this]
  | .word _, ts, h => by simp only [M4Argument.At] at h; simpa only [M4Argument.tokens] using h
end

theorem IfDef.at_toks {d : IfDef} {ts : Located} (h : d.At ts) : ts.toks = d.tokens := by
  obtain ⟨o, m, b, c, rfl, h₁, h₂, h₃, h₄⟩ := h
  have : b.toks = (match d.body with | none => [] | some b => b.tokens) := by
    cases hb : d.body with
    | none => rw [hb] at h₃; simp only at h₃ ⊢; subst h₃; rfl
    | some body => rw [hb] at h₃; simp only at h₃ ⊢; exact body.at_toks h₃
  simp only [IfDef.tokens, Located.toks_append, h₁.1, h₂, this, h₄]
  rfl

theorem commentsAt_toks (cs : List Nat) : (commentsAt cs).toks = cs.map (fun _ => .comment) := by
  simp [commentsAt, Located.toks]

theorem ifLinesAt_toks : ∀ (ls : List IfLine) {ts : Located}, ifLinesAt ls ts → ts.toks = ls.flatMap IfLine.tokens
  | [], ts, h => by simp only [ifLinesAt] at h; subst h; rfl
  | l :: ls, ts, h => by
    simp only [ifLinesAt] at h
    obtain ⟨a, b, rfl, h₁, h₂⟩ := h
    have : Located.toks a = l.tokens := by
      cases l with
      | defn d => exact IfDef.at_toks h₁
      | comment n => simp only [IfLine.At] at h₁; subst h₁; rfl
    rw [Located.toks_append, ifLinesAt_toks ls h₂, this]
    rfl

theorem SourceFile.at_toks {f : SourceFile} {ts : Located} (h : f.At ts) : ts.toks = f.tokens := by
  cases f with
  | empty => simp only [SourceFile.At] at h; subst h; rfl
  | te cs hd body =>
    obtain ⟨a, b, rfl, h₁, h₂⟩ := h
    simp only [SourceFile.tokens, Located.toks_append, commentsAt_toks, h₁.1, body.at_toks h₂]
  | iface cs d ls =>
    obtain ⟨a, b, rfl, h₁, h₂⟩ := h
    simp only [SourceFile.tokens, Located.toks_append, commentsAt_toks, IfDef.at_toks h₁, ifLinesAt_toks ls h₂]
  | spt cs d ls =>
    obtain ⟨b, rfl, h₁⟩ := h
    simp only [SourceFile.tokens, Located.toks_append, commentsAt_toks, h₁, List.append_assoc]
    rfl
  | av cs d ls =>
    obtain ⟨b, rfl, h₁⟩ := h
    simp only [SourceFile.tokens, Located.toks_append, commentsAt_toks, h₁, List.append_assoc]
    rfl
  | comments c cs =>
    simp only [SourceFile.At] at h
    subst h
    rw [commentsAt_toks]; rfl

/-! ## The order of lines -/

/-- The line numbers of nodes in document order. -/
def nodeLines (ts : List Tree) : List Nat := (Tree.preorderList ts).map NodeInfo.lineno

theorem preorderList_append' (a b : List Tree) :
    Tree.preorderList (a ++ b) = Tree.preorderList a ++ Tree.preorderList b := by
  induction a with
  | nil => rfl
  | cons t a ih => simp only [List.cons_append, Tree.preorderList, ih, List.append_assoc]

theorem nodeLines_append (a b : List Tree) : nodeLines (a ++ b) = nodeLines a ++ nodeLines b := by
  simp [nodeLines, preorderList_append']

theorem nodeLines_mk (i : NodeInfo) (cs : List Tree) : nodeLines [.mk i cs] = i.lineno :: nodeLines cs := by
  simp [nodeLines, Tree.preorderList, Tree.preorder]

theorem nodeLines_leaf (d : NodeData) (n : Nat) : nodeLines [leaf d n] = [n] := by
  simp [leaf, nodeLines_mk]; rfl

/-- Numbers in order, all among others. -/
structure Within (L P : List Nat) : Prop where
  sorted : L.Pairwise (· ≤ ·)
  mem : ∀ l ∈ L, l ∈ P

theorem Within.nil (P : List Nat) : Within [] P := ⟨.nil, by simp⟩

theorem Within.append {L M P Q : List Nat} (h₁ : Within L P) (h₂ : Within M Q)
    (hs : (P ++ Q).Pairwise (· ≤ ·)) : Within (L ++ M) (P ++ Q) := by
  refine ⟨List.pairwise_append.2 ⟨h₁.sorted, h₂.sorted, fun a ha b hb => ?_⟩, fun l hl => ?_⟩
  · exact (List.pairwise_append.1 hs).2.2 a (h₁.mem a ha) b (h₂.mem b hb)
  · rcases List.mem_append.1 hl with h | h
    · exact List.mem_append_left _ (h₁.mem l h)
    · exact List.mem_append_right _ (h₂.mem l h)

theorem Within.mono {L P Q : List Nat} (h : Within L P) (hs : ∀ p ∈ P, p ∈ Q) : Within L Q :=
  ⟨h.sorted, fun l hl => hs l (h.mem l hl)⟩

theorem Within.cons {L P : List Nat} {n : Nat} (h : Within L P) (hn : n ∈ P) (hl : ∀ l ∈ L, n ≤ l) :
    Within (n :: L) P :=
  ⟨List.pairwise_cons.2 ⟨hl, h.sorted⟩, fun l hl => by
    rcases List.mem_cons.1 hl with rfl | hl
    · exact hn
    · exact h.mem l hl⟩

theorem Within.same {L P : List Nat} {n : Nat} (hn : n ∈ P) (hl : ∀ l ∈ L, l = n) : Within L P := by
  refine ⟨?_, fun l h => hl l h ▸ hn⟩
  refine List.pairwise_of_forall_mem_list fun a ha b hb => ?_
  rw [hl a ha, hl b hb]; exact Nat.le_refl _

/-- What a piece of a file adds has its lines in order and among those of the tokens. -/
def AddsLines (b b' : Build) (P : List Nat) : Prop :=
  ∃ L, nodeLines b'.nodes.reverse = nodeLines b.nodes.reverse ++ L ∧ Within L P

theorem AddsLines.refl (b : Build) (P : List Nat) : AddsLines b b P := ⟨[], by simp, .nil P⟩

theorem AddsLines.mono {b b' : Build} {P Q : List Nat} (h : AddsLines b b' P) (hs : ∀ p ∈ P, p ∈ Q) :
    AddsLines b b' Q := by
  obtain ⟨L, e, hw⟩ := h
  exact ⟨L, e, hw.mono hs⟩

theorem AddsLines.trans {b b' b'' : Build} {P Q : List Nat} (h₁ : AddsLines b b' P) (h₂ : AddsLines b' b'' Q)
    (hs : (P ++ Q).Pairwise (· ≤ ·)) : AddsLines b b'' (P ++ Q) := by
  obtain ⟨L, e, hw⟩ := h₁
  obtain ⟨M, e', hw'⟩ := h₂
  exact ⟨L ++ M, by rw [e', e, List.append_assoc], hw.append hw' hs⟩

theorem AddsLines.add {b : Build} {t : Tree} {P : List Nat} (h : Within (nodeLines [t]) P) :
    AddsLines b (b.add t) P :=
  ⟨nodeLines [t], by simp [Build.add, nodeLines_append], h⟩

theorem command_lines (c : Str) (b : Build) :
    nodeLines (b.command c).nodes.reverse = nodeLines b.nodes.reverse := by
  unfold Build.command
  split
  · rfl
  · rename_i t ts h
    rw [h]
    cases t with
    | mk i cs => simp [nodeLines_append, nodeLines_mk, Tree.info, Tree.children]

theorem AddsLines.command {b b' : Build} {P : List Nat} (h : AddsLines b b' P) (c : Str) :
    AddsLines b (b'.command c) P := by
  obtain ⟨L, e, hw⟩ := h
  exact ⟨L, by rw [command_lines, e], hw⟩

/-- A block: its line stands among the first tokens, its content among the later ones. -/
theorem AddsLines.block {b : Build} {data : NodeData} {line : Nat} {cmd : Option Str}
    {inside : Build → Build} {P Q : List Nat}
    (hi : ∀ b', AddsLines b' (inside b') Q) (hl : line ∈ P) (hle : ∀ q ∈ Q, line ≤ q) (hq : ∀ q ∈ Q, q ∈ P) :
    AddsLines b (b.block data line cmd inside) P := by
  obtain ⟨L, e, hw⟩ := hi ⟨[startMarker line], b.answers⟩
  refine ⟨line :: line :: L, ?_, ?_⟩
  · have : nodeLines [startMarker line] = [line] := nodeLines_leaf _ _
    simp only [Build.block, List.reverse_cons, nodeLines_append, nodeLines_mk, e]
    simp [this]
    rfl
  · have h₁ := (hw.mono hq).cons hl (fun l h => hle l (hw.mem l h))
    refine h₁.cons hl fun l h => ?_
    rcases List.mem_cons.1 h with rfl | h
    · exact Nat.le_refl _
    · exact hle l (hw.mem l h)

theorem first_mem {ts : Located} {n : Nat} (h : ts.first = some n) : n ∈ ts.lines := by
  unfold Located.first at h
  exact List.mem_of_mem_head? h

theorem last_mem {ts : Located} {n : Nat} (h : ts.last = some n) : n ∈ ts.lines := by
  unfold Located.last at h
  exact List.mem_of_getLast? h

/-- In order. -/
abbrev Located.Sorted (ts : Located) : Prop := ts.lines.Pairwise (· ≤ ·)

theorem sorted_append {a b : Located} : Located.Sorted (a ++ b) ↔
    a.Sorted ∧ b.Sorted ∧ ∀ x ∈ a.lines, ∀ y ∈ b.lines, x ≤ y := by
  unfold Located.Sorted
  rw [Located.lines_append, List.pairwise_append]

theorem simpleNode_lines (line : Nat) (s : Simple) : ∀ l ∈ nodeLines [simpleNode line s], l = line := by
  intro l hl
  rw [simpleNode, nodeLines_mk] at hl
  rcases List.mem_cons.1 hl with rfl | hl
  · rfl
  · generalize simpleAliases s = as at hl
    induction as with
    | nil => cases hl
    | cons a as ih =>
      rw [List.map_cons, ← List.singleton_append, nodeLines_append] at hl
      rcases List.mem_append.1 hl with hl | hl
      · rw [nodeLines_leaf] at hl; simpa using hl
      · exact ih hl

theorem decls_lines (fl : DeclFlavor) (line : Nat) (ns : List Str) (b : Build) {P : List Nat} (hl : line ∈ P) :
    AddsLines b (ns.foldl (fun b n => b.add (leaf (.decl ⟨fl, n, []⟩) line)) b) P := by
  suffices h : ∃ L, nodeLines (ns.foldl (fun b n => b.add (leaf (.decl ⟨fl, n, []⟩) line)) b).nodes.reverse =
      nodeLines b.nodes.reverse ++ L ∧ ∀ l ∈ L, l = line by
    obtain ⟨L, e, h⟩ := h
    exact ⟨L, e, .same hl h⟩
  induction ns generalizing b with
  | nil => exact ⟨[], by simp, by simp⟩
  | cons n ns ih =>
    obtain ⟨L, e, h⟩ := ih (b.add (leaf (.decl ⟨fl, n, []⟩) line))
    refine ⟨line :: L, ?_, by simpa using h⟩
    rw [List.foldl_cons, e]
    simp [Build.add, nodeLines_append, nodeLines_leaf]

mutual
theorem ReqLines.addsLines : ∀ (d : ReqLines) {ts : Located}, d.At ts → ts.Sorted → ∀ b,
    AddsLines b (buildReqLines d b) ts.lines
  | .one l, ts, h, hs, b => by
    simp only [ReqLines.At] at h
    simpa only [buildReqLines] using l.addsLines h hs b
  | .more ls l, ts, h, hs, b => by
    simp only [ReqLines.At] at h
    obtain ⟨x, y, rfl, h₁, h₂⟩ := h
    have hs' := sorted_append.1 hs
    simp only [buildReqLines, Located.lines_append]
    exact (ls.addsLines h₁ hs'.1 b).trans (l.addsLines h₂ hs'.2.1 _) (Located.lines_append x y ▸ hs)
theorem ReqLine.addsLines : ∀ (d : ReqLine) {ts : Located}, d.At ts → ts.Sorted → ∀ b,
    AddsLines b (buildReqLine d b) ts.lines
  | .bare s, ts, h, hs, b => by
    simp only [ReqLine.At] at h
    simpa only [buildReqLine] using s.addsLines h hs b
  | .withCommand s c, ts, h, hs, b => by
    simp only [ReqLine.At] at h
    obtain ⟨x, n, rfl, h₁⟩ := h
    have hs' := sorted_append.1 hs
    simp only [buildReqLine]
    exact ((s.addsLines h₁ hs'.1 b).command c).mono (by simp [Located.lines_append]; grind)
theorem ReqStmt.addsLines : ∀ (d : ReqStmt) {ts : Located}, d.At ts → ts.Sorted → ∀ b,
    AddsLines b (buildReqStmt d b) ts.lines
  | .decls line fl _ _ names, ts, h, hs, b => by
    simp only [ReqStmt.At] at h
    simp only [buildReqStmt]
    exact decls_lines fl line _ b (first_mem h.2)
  | .cls line n l, ts, h, hs, b => by
    simp only [ReqStmt.At] at h
    simp only [buildReqStmt]
    exact .add (.same (first_mem h.2) (by simp [nodeLines_leaf]))
  | .ifdef line _ q _ body, ts, h, hs, b => by
    simp only [ReqStmt.At] at h
    obtain ⟨o, x, c, rfl, h₁, h₂, h₃, h₄⟩ := h
    have hs' := sorted_append.1 (sorted_append.1 hs).1
    simp only [buildReqStmt]
    exact .block (fun b' => body.addsLines h₃ hs'.2.1 b') (by simp [Located.lines_append, last_mem h₂])
      (fun q hq => hs'.2.2 _ (last_mem h₂) q hq) (by simp [Located.lines_append]; grind)
  | .comment, ts, h, hs, b => by simp only [buildReqStmt]; exact .refl b _
end

mutual
theorem Lines.addsLines : ∀ (d : Lines) {ts : Located}, d.At ts → ts.Sorted → ∀ b,
    AddsLines b (buildLines d b) ts.lines
  | .one l, ts, h, hs, b => by
    simp only [Lines.At] at h
    simpa only [buildLines] using l.addsLines h hs b
  | .more ls l, ts, h, hs, b => by
    simp only [Lines.At] at h
    obtain ⟨x, y, rfl, h₁, h₂⟩ := h
    have hs' := sorted_append.1 hs
    simp only [buildLines, Located.lines_append]
    exact (ls.addsLines h₁ hs'.1 b).trans (l.addsLines h₂ hs'.2.1 _) (Located.lines_append x y ▸ hs)
theorem Line.addsLines : ∀ (d : Line) {ts : Located}, d.At ts → ts.Sorted → ∀ b,
    AddsLines b (buildLine d b) ts.lines
  | .bare s, ts, h, hs, b => by
    simp only [Line.At] at h
    simpa only [buildLine] using s.addsLines h hs b
  | .withCommand s c, ts, h, hs, b => by
    simp only [Line.At] at h
    obtain ⟨x, n, rfl, h₁⟩ := h
    have hs' := sorted_append.1 hs
    simp only [buildLine]
    exact ((s.addsLines h₁ hs'.1 b).command c).mono (by simp [Located.lines_append]; grind)
theorem Stmt.addsLines : ∀ (d : Stmt) {ts : Located}, d.At ts → ts.Sorted → ∀ b,
    AddsLines b (buildStmt d b) ts.lines
  | .silent _, ts, h, hs, b => by simp only [buildStmt]; exact .refl b _
  | .simple line s, ts, h, hs, b => by
    simp only [Stmt.At] at h
    have hw : Within (nodeLines [simpleNode line s]) ts.lines :=
      .same (first_mem h.2) (simpleNode_lines line s)
    simp only [buildStmt]
    split
    · unfold Build.call
      split
      · exact .add hw
      · exact .add (b := b) hw
      · exact .refl b _
    · exact .add hw
  | .optional line cmd body, ts, h, hs, b => by
    simp only [Stmt.At] at h
    obtain ⟨o, x, c, rfl, h₁, h₂, h₃⟩ := h
    have hs' := sorted_append.1 (sorted_append.1 hs).1
    simp only [buildStmt]
    exact .block (fun b' => body.addsLines h₂ hs'.2.1 b') (by simp [Located.lines_append, first_mem h₁.2])
      (fun q hq => hs'.2.2 _ (first_mem h₁.2) q hq) (by simp [Located.lines_append]; grind)
  | .optionalEmpty line cmd, ts, h, hs, b => by
    simp only [Stmt.At] at h
    obtain ⟨o, c, rfl, h₁, h₃⟩ := h
    simp only [buildStmt]
    exact .block (Q := []) (fun b' => .refl b' _) (by simp [Located.lines_append, first_mem h₁.2])
      (by simp) (by simp)
  | .optionalElse line cmd body elseLine els, ts, h, hs, b => by
    simp only [Stmt.At] at h
    obtain ⟨o, x, m, e, c, rfl, h₁, h₂, h₃, h₄, h₅, h₆⟩ := h
    have hs₁ := sorted_append.1 hs
    have hs₂ := sorted_append.1 hs₁.1
    have hs₃ := sorted_append.1 hs₂.1
    have hs₄ := sorted_append.1 hs₃.1
    simp only [buildStmt]
    have f₁ : AddsLines b (b.block (.plain .optionalPolicy none) line cmd (buildLines body))
        (Located.lines (o ++ x)) :=
      .block (fun b' => body.addsLines h₂ hs₄.2.1 b') (by simp [Located.lines_append, first_mem h₁.2])
        (fun q hq => hs₄.2.2 _ (first_mem h₁.2) q hq) (by simp [Located.lines_append]; grind)
    have f₂ := fun b => AddsLines.block (b := b) (P := Located.lines (m ++ e)) (data := .plain .optionalElse none)
      (line := elseLine) (cmd := none) (fun b' => els.addsLines h₅ hs₂.2.1 b')
      (by simp [Located.lines_append, last_mem h₄])
      (fun q hq => hs₂.2.2 _ (by simp [Located.lines_append, last_mem h₄]) q hq)
      (by simp [Located.lines_append]; grind)
    refine (f₁.trans (f₂ _) ?_).mono (by simp [Located.lines_append]; grind)
    have := hs₁.1
    simpa [Located.Sorted, Located.lines_append] using this
  | .genRequire line cmd cmd' body, ts, h, hs, b => by
    simp only [Stmt.At] at h
    obtain ⟨o, m, x, c, rfl, h₁, h₂, h₃, h₄⟩ := h
    have hs' := sorted_append.1 (sorted_append.1 hs).1
    simp only [buildStmt]
    exact .block (fun b' => body.addsLines h₃ hs'.2.1 b') (by simp [Located.lines_append, first_mem h₁.2])
      (fun q hq => hs'.2.2 _ (by simp [Located.lines_append, first_mem h₁.2]) q hq)
      (by simp [Located.lines_append]; grind)
  | .genRequireUnquoted line cmd body, ts, h, hs, b => by
    simp only [Stmt.At] at h
    obtain ⟨o, x, c, rfl, h₁, h₂, h₃⟩ := h
    have hs' := sorted_append.1 (sorted_append.1 hs).1
    simp only [buildStmt]
    exact .block (fun b' => body.addsLines h₂ hs'.2.1 b') (by simp [Located.lines_append, first_mem h₁.2])
      (fun q hq => hs'.2.2 _ (first_mem h₁.2) q hq) (by simp [Located.lines_append]; grind)
  | .require line cmd body, ts, h, hs, b => by
    simp only [Stmt.At] at h
    obtain ⟨o, x, c, rfl, h₁, h₂, h₃, h₄⟩ := h
    have hs' := sorted_append.1 (sorted_append.1 hs).1
    simp only [buildStmt]
    exact .block (fun b' => body.addsLines h₃ hs'.2.1 b') (by simp [Located.lines_append, last_mem h₂])
      (fun q hq => hs'.2.2 _ (last_mem h₂) q hq) (by simp [Located.lines_append]; grind)
  | .ifdef line _ _ args, ts, h, hs, b => by
    simp only [Stmt.At] at h
    obtain ⟨o, x, c, rfl, h₁, h₂, h₃, h₄⟩ := h
    have hs' := sorted_append.1 (sorted_append.1 hs).1
    have hle := fun q hq => hs'.2.2 _ (last_mem h₂) q hq
    simp only [buildStmt]
    exact .block (fun b' => args.addsLines h₃ hs'.2.1 hle b') (by simp [Located.lines_append, last_mem h₂])
      (fun q hq => by
        rcases List.mem_cons.1 hq with rfl | hq
        · exact Nat.le_refl _
        · exact hle q hq)
      (by simp [Located.lines_append, last_mem h₂]; grind)
  | .ifelse line args, ts, h, hs, b => by
    simp only [Stmt.At] at h
    obtain ⟨o, x, c, rfl, h₁, h₂, h₃, h₄⟩ := h
    have hs' := sorted_append.1 (sorted_append.1 hs).1
    have hle := fun q hq => hs'.2.2 _ (last_mem h₂) q hq
    simp only [buildStmt]
    exact .block (fun b' => args.addsLines h₃ hs'.2.1 hle b') (by simp [Located.lines_append, last_mem h₂])
      (fun q hq => by
        rcases List.mem_cons.1 hq with rfl | hq
        · exact Nat.le_refl _
        · exact hle q hq)
      (by simp [Located.lines_append, last_mem h₂]; grind)
  | .userdebugOrEng body, ts, h, hs, b => by
    simp only [Stmt.At] at h
    obtain ⟨o, x, c, rfl, h₁, h₂, h₃⟩ := h
    have hs' := sorted_append.1 (sorted_append.1 hs).1
    simp only [buildStmt]
    exact (body.addsLines h₂ hs'.2.1 b).mono (by simp [Located.lines_append]; grind)
  | .tunable line q _ args, ts, h, hs, b => by
    simp only [Stmt.At] at h
    obtain ⟨o, m, x, c, p, rfl, h₁, h₂, h₃, h₄, h₅, h₆⟩ := h
    have hs₁ := sorted_append.1 (sorted_append.1 hs).1
    have hs₂ := sorted_append.1 hs₁.1
    have hp : p ∈ Located.lines (o ++ m) := by simp [Located.lines_append, last_mem h₄]
    have hlp : line ≤ p := hs₂.2.2 _ (last_mem h₂) _ (last_mem h₄)
    have hle := fun q hq => hs₁.2.2 _ hp q hq
    simp only [buildStmt]
    exact .block (fun b' => args.addsLines h₅ hs₁.2.1 hle b') (by simp [Located.lines_append, last_mem h₂])
      (fun q hq => by
        rcases List.mem_cons.1 hq with rfl | hq
        · exact hlp
        · exact Nat.le_trans hlp (hle q hq))
      (by simp [Located.lines_append, last_mem h₄]; grind)
  | .boolean line cmd _ body, ts, h, hs, b => by
    simp only [Stmt.At] at h
    obtain ⟨o, m, x, c, rfl, h₁, h₂, h₃, h₄⟩ := h
    have hs' := sorted_append.1 (sorted_append.1 hs).1
    simp only [buildStmt]
    exact .block (fun b' => body.addsLines h₃ hs'.2.1 b') (by simp [Located.lines_append, first_mem h₁.2])
      (fun q hq => hs'.2.2 _ (by simp [Located.lines_append, first_mem h₁.2]) q hq)
      (by simp [Located.lines_append]; grind)
  | .booleanElse line cmd _ body els, ts, h, hs, b => by
    simp only [Stmt.At] at h
    obtain ⟨o, m, x, n, e, c, rfl, h₁, h₂, h₃, h₄, h₅, h₆⟩ := h
    have hs₁ := sorted_append.1 hs
    have hs₂ := sorted_append.1 hs₁.1
    have hs₃ := sorted_append.1 hs₂.1
    have hs₄ := sorted_append.1 hs₃.1
    simp only [buildStmt]
    have hxe : (Located.lines x ++ Located.lines e).Pairwise (· ≤ ·) :=
      List.pairwise_append.2 ⟨hs₄.2.1, hs₂.2.1, fun a ha b hb =>
        hs₂.2.2 a (by simp [Located.lines_append, ha]) b hb⟩
    refine .block (Q := Located.lines x ++ Located.lines e) (fun b' => ?_)
      (by simp [Located.lines_append, first_mem h₁.2]) (fun q hq => ?_)
      (by simp [Located.lines_append]; grind)
    · exact (body.addsLines h₃ hs₄.2.1 b').trans (els.addsLines h₅ hs₂.2.1 _) hxe
    · rcases List.mem_append.1 hq with hq | hq
      · exact hs₄.2.2 _ (by simp [Located.lines_append, first_mem h₁.2]) q hq
      · exact hs₂.2.2 _ (by simp [Located.lines_append, first_mem h₁.2]) q hq
  | .define line _ _ _, ts, h, hs, b => by
    simp only [Stmt.At] at h
    obtain ⟨o, c, rfl, h₁, h₂, h₃⟩ := h
    simp only [buildStmt]
    exact .block (Q := []) (fun b' => .refl b' _) (by simp [Located.lines_append, last_mem h₂])
      (by simp) (by simp)
theorem M4Args.addsLines : ∀ (d : M4Args) {prev : Nat} {ts : Located}, d.At prev ts → ts.Sorted →
    (∀ q ∈ ts.lines, prev ≤ q) → ∀ b, AddsLines b (buildArgs d b) (prev :: ts.lines)
  | .one line a, prev, ts, h, hs, hle, b => by
    simp only [M4Args.At] at h
    obtain ⟨rfl, h⟩ := h
    simp only [buildArgs]
    exact .block (fun b' => a.addsLines h hs b') (by simp) hle (by simp; grind)
  | .more as line a, prev, ts, h, hs, hle, b => by
    simp only [M4Args.At] at h
    obtain ⟨x, y, rfl, h₁, h₂⟩ := h
    have hs' := sorted_append.1 hs
    have hy := List.pairwise_cons.1 (show (line :: Located.lines y).Pairwise (· ≤ ·) from hs'.2.1)
    simp only [buildArgs]
    have f₁ := as.addsLines h₁ hs'.1 (fun q hq => hle q (by simp [Located.lines_append, hq])) b
    have f₂ := fun b => AddsLines.block (b := b) (P := line :: Located.lines y) (data := .plain .m4Arg none)
      (cmd := none) (line := line) (fun b' => a.addsLines h₂ hy.2 b') (by simp) hy.1 (by simp; grind)
    have e : Located.lines (x ++ (line, tComma) :: y) = Located.lines x ++ (line :: Located.lines y) := by
      simp [Located.lines]
    rw [e]
    refine f₁.trans (f₂ _) ?_
    rw [List.cons_append, ← e]
    exact List.pairwise_cons.2 ⟨hle, hs⟩
theorem M4Argument.addsLines : ∀ (d : M4Argument) {ts : Located}, d.At ts → ts.Sorted → ∀ b,
    AddsLines b (buildArg d b) ts.lines
  | .empty, ts, h, hs, b => by simp only [buildArg]; exact .refl b _
  | .emptyQuoted, ts, h, hs, b => by simp only [buildArg]; exact .refl b _
  | .quoted body, ts, h, hs, b => by
    simp only [M4Argument.At] at h
    obtain ⟨m, n, x, rfl, h₁⟩ := h
    have hs₁ := List.pairwise_cons.1 (show (m :: Located.lines (x ++ [(n, tQuote)])).Pairwise (· ≤ ·) from hs)
    have hs₂ := sorted_append.1 (show Located.Sorted (x ++ [(n, tQuote)]) from hs₁.2)
    simp only [buildArg]
    exact (body.addsLines h₁ hs₂.1 b).mono (by simp [Located.lines]; grind)
  | .word _, ts, h, hs, b => by simp only [buildArg]; exact .refl b _
end

theorem IfDef.addsLines {d : IfDef} {ts : Located} (h : d.At ts) (hs : ts.Sorted) (b : Build) :
    AddsLines b (buildIfDef d b) ts.lines := by
  obtain ⟨o, m, x, c, rfl, h₁, h₂, h₃, h₄⟩ := h
  have hs' := sorted_append.1 (sorted_append.1 hs).1
  unfold buildIfDef
  refine .block (Q := Located.lines x) (fun b' => ?_) (by simp [Located.lines_append, first_mem h₁.2])
    (fun q hq => hs'.2.2 _ (by simp [Located.lines_append, first_mem h₁.2]) q hq)
    (by simp [Located.lines_append]; grind)
  cases hb : d.body with
  | none => exact .refl b' _
  | some body =>
    rw [hb] at h₃
    exact body.addsLines h₃ hs'.2.1 b'

theorem comments_lines {cs : List Nat} (b : Build) (hs : cs.Pairwise (· ≤ ·)) :
    AddsLines b (cs.foldl (fun b c => b.add (leaf (.plain .comment none) c)) b) cs := by
  induction cs generalizing b with
  | nil => exact .refl b _
  | cons c cs ih =>
    have f₁ : AddsLines b (b.add (leaf (.plain .comment none) c)) [c] :=
      .add (.same (n := c) (by simp) (by simp [nodeLines_leaf]))
    exact f₁.trans (ih _ (List.pairwise_cons.1 hs).2) hs

theorem commentsAt_lines (cs : List Nat) : (commentsAt cs).lines = cs := by
  simp [commentsAt, Located.lines, Function.comp_def]

theorem ifLines_lines : ∀ (ls : List IfLine) {ts : Located}, ifLinesAt ls ts → ts.Sorted → ∀ b,
    AddsLines b (ls.foldl buildIfLine b) ts.lines
  | [], ts, h, hs, b => .refl b _
  | l :: ls, ts, h, hs, b => by
    simp only [ifLinesAt] at h
    obtain ⟨x, y, rfl, h₁, h₂⟩ := h
    have hs' := sorted_append.1 hs
    have f₁ : AddsLines b (buildIfLine b l) (Located.lines x) := by
      cases l with
      | defn d => exact IfDef.addsLines h₁ hs'.1 b
      | comment n =>
        simp only [IfLine.At] at h₁
        subst h₁
        exact .add (.same (n := n) (by simp [Located.lines]) (by simp [nodeLines_leaf]))
    rw [Located.lines_append]
    exact f₁.trans (ifLines_lines ls h₂ hs'.2.1 _) (Located.lines_append x y ▸ hs)

theorem SourceFile.addsLines {f : SourceFile} {ts : Located} (h : f.At ts) (hs : ts.Sorted)
    (expected : PlainFlavor) (answers : List Bool) :
    ∃ L, nodeLines (buildFile f expected answers).nodes.reverse = 0 :: L ∧ Within L ts.lines := by
  have start : ∀ (d : NodeData), nodeLines (⟨[leaf d 0], answers⟩ : Build).nodes.reverse = [0] := fun d => by
    simpa using nodeLines_leaf d 0
  have key : ∀ (d : NodeData) (b : Build), AddsLines ⟨[leaf d 0], answers⟩ b ts.lines →
      ∃ L, nodeLines b.nodes.reverse = 0 :: L ∧ Within L ts.lines := by
    rintro d b ⟨L, e, hw⟩
    exact ⟨L, by rw [e, start]; rfl, hw⟩
  cases f with
  | empty => exact key (.plain .empty none) _ (.refl _ _)
  | te cs hd body =>
    obtain ⟨a, b, rfl, h₁, h₂⟩ := h
    have hs₁ := sorted_append.1 hs
    have hs₂ := sorted_append.1 hs₁.1
    refine key (.plain expected none) _ ?_
    simp only [Located.lines_append, commentsAt_lines]
    refine AddsLines.trans (b' := Build.add _ (headerNode hd)) (.trans (comments_lines _ ?_) (.add ?_) ?_)
      (body.addsLines h₂ hs₁.2.1 _) ?_
    · have := hs₂.1; unfold Located.Sorted at this; rwa [commentsAt_lines] at this
    · exact .same (first_mem h₁.2) (by simp [headerNode, nodeLines_leaf])
    · have := hs₁.1; unfold Located.Sorted at this; rwa [Located.lines_append, commentsAt_lines] at this
    · unfold Located.Sorted at hs; rwa [Located.lines_append, Located.lines_append, commentsAt_lines] at hs
  | iface cs d ls =>
    obtain ⟨a, b, rfl, h₁, h₂⟩ := h
    have hs₁ := sorted_append.1 hs
    have hs₂ := sorted_append.1 hs₁.1
    refine key (.plain expected none) _ ?_
    simp only [Located.lines_append, commentsAt_lines]
    refine AddsLines.trans (b' := buildIfDef d _) (.trans (comments_lines _ ?_) (IfDef.addsLines h₁ hs₂.2.1 _) ?_)
      (ifLines_lines ls h₂ hs₁.2.1 _) ?_
    · have := hs₂.1; unfold Located.Sorted at this; rwa [commentsAt_lines] at this
    · have := hs₁.1; unfold Located.Sorted at this; rwa [Located.lines_append, commentsAt_lines] at this
    · unfold Located.Sorted at hs; rwa [Located.lines_append, Located.lines_append, commentsAt_lines] at hs
  | spt cs d ls =>
    obtain ⟨b, rfl, _⟩ := h
    have hs₁ := sorted_append.1 hs
    refine key (.plain expected none) _ ((comments_lines _ ?_).mono (by simp [Located.lines_append, commentsAt_lines]; grind))
    have := hs₁.1; unfold Located.Sorted at this; rwa [commentsAt_lines] at this
  | av cs d ls =>
    obtain ⟨b, rfl, _⟩ := h
    have hs₁ := sorted_append.1 hs
    refine key (.plain expected none) _ ((comments_lines _ ?_).mono (by simp [Located.lines_append, commentsAt_lines]; grind))
    have := hs₁.1; unfold Located.Sorted at this; rwa [commentsAt_lines] at this
  | comments c cs =>
    simp only [SourceFile.At] at h
    subst h
    unfold Located.Sorted at hs
    refine key (.plain expected none) _ ?_
    rw [commentsAt_lines] at hs ⊢
    exact comments_lines _ hs

end Selint
