import Verif.Lemmas.Present
/-! # The exceptions at the nodes of a file come from its commands -/

namespace Selint
open Spec

/-- The commands in `ts` list only exceptions that satisfy `S`. -/
def CmdLists (S : Str → Prop) (ts : List Token) : Prop := ∀ c, Token.command c ∈ ts → ∀ e, exceptionsOf c = some e → S e

theorem CmdLists.append {S : Str → Prop} {a b : List Token} : CmdLists S (a ++ b) ↔ CmdLists S a ∧ CmdLists S b := by
  simp [CmdLists, or_imp, forall_and]

theorem CmdLists.cons {S : Str → Prop} {t : Token} {b : List Token} :
    CmdLists S (t :: b) ↔ (∀ c, t = .command c → ∀ e, exceptionsOf c = some e → S e) ∧ CmdLists S b := by
  simp only [CmdLists, List.mem_cons, or_imp, forall_and]
  refine and_congr_left fun _ => ⟨fun h c hc => h c hc.symm, fun h c hc => h c hc.symm⟩

theorem CmdLists.command {S : Str → Prop} {cmd : Option Str} (h : CmdLists S (commandTokens cmd)) :
    ∀ e, cmd.bind exceptionsOf = some e → S e := by
  intro e he
  cases cmd with
  | none => cases he
  | some c => exact h c (by simp [commandTokens]) e he

/-- The exceptions at the nodes satisfy `S`. -/
def MarkedBy (S : Str → Prop) (ts : List Tree) : Prop := ∀ i ∈ Tree.preorderList ts, ∀ e, i.exceptions = some e → S e

theorem mem_preorderList {ts : List Tree} {i : NodeInfo} : i ∈ Tree.preorderList ts ↔ ∃ t ∈ ts, i ∈ t.preorder := by
  induction ts with
  | nil => simp [Tree.preorderList]
  | cons t ts ih => simp [Tree.preorderList, ih]

theorem MarkedBy.reverse {S : Str → Prop} {ts : List Tree} (h : MarkedBy S ts) : MarkedBy S ts.reverse := by
  intro i hi
  refine h i ?_
  rw [mem_preorderList] at hi ⊢
  simpa using hi

theorem MarkedBy.cons {S : Str → Prop} {i : NodeInfo} {cs ts : List Tree} (hi : ∀ e, i.exceptions = some e → S e)
    (hc : MarkedBy S cs) (h : MarkedBy S ts) : MarkedBy S (.mk i cs :: ts) := by
  intro j hj
  simp only [Tree.preorderList, Tree.preorder, List.mem_append, List.mem_cons] at hj
  rcases hj with (rfl | hj) | hj
  · exact hi
  · exact hc j hj
  · exact h j hj

/-- Running `f` marks nodes only in this way. -/
def Marks (S : Str → Prop) (f : Build → Build) : Prop := ∀ b, MarkedBy S b.nodes → MarkedBy S (f b).nodes

namespace Marks
variable {S : Str → Prop}

theorem id : Marks S (fun b => b) := fun _ h => h

theorem comp {f g : Build → Build} (hf : Marks S f) (hg : Marks S g) : Marks S (fun b => g (f b)) :=
  fun b h => hg _ (hf b h)

theorem add {t : Tree} (ht : ∀ i ∈ t.preorder, i.exceptions = none) : Marks S (fun b => b.add t) := by
  obtain ⟨i, cs⟩ := t
  refine fun b h => .cons ?_ ?_ h
  · rw [ht i (by simp [Tree.preorder])]; exact fun _ he => nomatch he
  · intro j hj
    rw [ht j (by simp [Tree.preorder, hj])]; exact fun _ he => nomatch he

theorem call {i : NodeInfo} (hi : i.exceptions = none) : Marks S (fun b => b.call (.mk i [])) := by
  have key : ∀ ns, MarkedBy S ns → MarkedBy S (.mk i [] :: ns) := fun ns h =>
    .cons (by rw [hi]; exact fun _ he => nomatch he) (fun j hj => by simp [Tree.preorderList] at hj) h
  intro b h
  simp only [Build.call]
  split
  · exact key _ h
  · exact key _ h
  · exact h

theorem command {f : Build → Build} {c : Str} (hf : Marks S f) (hc : ∀ e, exceptionsOf c = some e → S e) :
    Marks S (fun b => (f b).command c) := by
  intro b h
  have h := hf b h
  simp only [Build.command]
  split
  · exact h
  · rename_i t ts e
    rw [e] at h
    obtain ⟨i, cs⟩ := t
    exact .cons hc (fun j hj => h j (by simp [Tree.preorderList, Tree.preorder, Tree.children] at hj ⊢; simp [hj]))
      fun j hj => h j (by simp [Tree.preorderList, hj])

theorem block {f : Build → Build} {data : NodeData} {line : Nat} {cmd : Option Str}
    (hc : ∀ e, cmd.bind exceptionsOf = some e → S e) (hf : Marks S f) : Marks S (Build.block data line cmd f) := by
  intro b h
  refine .cons hc (hf _ ?_).reverse h
  intro j hj
  simp only [startMarker, leaf, Tree.preorderList, Tree.preorder, List.append_nil, List.mem_cons, List.not_mem_nil, or_false] at hj
  subst hj
  exact fun _ he => nomatch he

theorem plain {f : Build → Build} {data : NodeData} {line : Nat} (hf : Marks S f) : Marks S (Build.block data line none f) :=
  block (fun _ he => nomatch he) hf

theorem decls (fl : DeclFlavor) (line : Nat) (ns : List Str) :
    Marks S (fun b => ns.foldl (fun b n => b.add (leaf (.decl ⟨fl, n, []⟩) line)) b) := by
  induction ns with
  | nil => exact id
  | cons n ns ih => exact (add (by simp [leaf, Tree.preorder, Tree.preorderList])).comp ih

end Marks

section
variable {S : Str → Prop}

mutual
theorem marks_reqLines : ∀ d : ReqLines, CmdLists S d.tokens → Marks S (buildReqLines d)
  | .one l, h => marks_reqLine l h
  | .more ls l, h => by
    rw [ReqLines.tokens, CmdLists.append] at h
    exact (marks_reqLines ls h.1).comp (marks_reqLine l h.2)
theorem marks_reqLine : ∀ d : ReqLine, CmdLists S d.tokens → Marks S (buildReqLine d)
  | .bare s, h => marks_reqStmt s h
  | .withCommand s c, h => by
    rw [ReqLine.tokens, CmdLists.append] at h
    exact (marks_reqStmt s h.1).command (h.2 c (by simp))
theorem marks_reqStmt : ∀ d : ReqStmt, CmdLists S d.tokens → Marks S (buildReqStmt d)
  | .decls line fl _ _ names, _ => Marks.decls fl line names.value
  | .cls line n l, _ => Marks.add (by simp [leaf, Tree.preorder, Tree.preorderList])
  | .ifdef line _ quoted _ body, h => by
    have h' : CmdLists S body.tokens := by
      cases quoted <;> simp [ReqStmt.tokens, CmdLists.append, CmdLists.cons] at h <;> simp [h]
    exact Marks.plain (marks_reqLines body h')
  | .comment, _ => Marks.id
end

mutual
theorem marks_lines : ∀ d : Lines, CmdLists S d.tokens → Marks S (buildLines d)
  | .one l, h => marks_line l h
  | .more ls l, h => by
    rw [Lines.tokens, CmdLists.append] at h
    exact (marks_lines ls h.1).comp (marks_line l h.2)
theorem marks_line : ∀ d : Line, CmdLists S d.tokens → Marks S (buildLine d)
  | .bare s, h => marks_stmt s h
  | .withCommand s c, h => by
    rw [Line.tokens, CmdLists.append] at h
    exact (marks_stmt s h.1).command (h.2 c (by simp))
theorem marks_stmt : ∀ d : Stmt, CmdLists S d.tokens → Marks S (buildStmt d)
  | .silent _, _ => Marks.id
  | .simple line s, _ => by
    intro b
    simp only [buildStmt]
    cases hs : isCall s with
    | true =>
      simp only [if_true]
      cases s <;> simp [isCall] at hs
      rename_i a _
      cases a <;> exact Marks.call rfl b
    | false =>
      simp only [Bool.false_eq_true, if_false]
      exact Marks.add (fun i hi => (sifts_simple line s hs i hi).2) b
  | .optional line cmd body, h => by
    simp only [Stmt.tokens, CmdLists.append] at h
    exact Marks.block h.1.1.2.command (marks_lines body h.1.2)
  | .optionalEmpty line cmd, h => by
    simp only [Stmt.tokens, CmdLists.append] at h
    exact Marks.block h.1.2.command Marks.id
  | .optionalElse line cmd body elseLine els, h => by
    simp only [Stmt.tokens, CmdLists.append] at h
    exact (Marks.block h.1.1.1.1.2.command (marks_lines body h.1.1.1.2)).comp (Marks.plain (marks_lines els h.1.2))
  | .genRequire line cmd cmd' body, h => by
    simp only [Stmt.tokens, CmdLists.append, CmdLists.cons] at h
    refine Marks.block ?_ (marks_reqLines body h.1.2)
    cases cmd' with
    | none => exact h.1.1.1.2.command
    | some c => exact h.1.1.2.2.command
  | .genRequireUnquoted line cmd body, h => by
    simp only [Stmt.tokens, CmdLists.append, CmdLists.cons] at h
    exact Marks.block h.1.1.2.command (marks_reqLines body h.1.2)
  | .require line cmd body, h => by
    simp only [Stmt.tokens, CmdLists.append, CmdLists.cons] at h
    exact Marks.block h.1.1.2.command (marks_reqLines body h.1.2)
  | .ifdef line _ _ args, h => by
    simp only [Stmt.tokens, CmdLists.append] at h
    exact Marks.plain (marks_args args h.1.2)
  | .ifelse line args, h => by
    simp only [Stmt.tokens, CmdLists.append] at h
    exact Marks.plain (marks_args args h.1.2)
  | .userdebugOrEng body, h => by
    simp only [Stmt.tokens, CmdLists.append] at h
    exact marks_lines body h.1.2
  | .tunable line _ _ args, h => by
    simp only [Stmt.tokens, CmdLists.append, CmdLists.cons] at h
    exact Marks.plain (marks_args args h.1.2.2)
  | .boolean line cmd _ body, h => by
    simp only [Stmt.tokens, CmdLists.append] at h
    exact Marks.block h.1.1.1.1.2.command (marks_lines body h.1.2)
  | .booleanElse line cmd _ body els, h => by
    simp only [Stmt.tokens, CmdLists.append] at h
    exact Marks.block h.1.1.1.1.1.1.2.command ((marks_lines body h.1.1.1.2).comp (marks_lines els h.1.2))
  | .define line _ _ _, _ => Marks.plain Marks.id
theorem marks_args : ∀ d : M4Args, CmdLists S d.tokens → Marks S (buildArgs d)
  | .one line a, h => Marks.plain (marks_arg a h)
  | .more as line a, h => by
    simp only [M4Args.tokens, CmdLists.append, CmdLists.cons] at h
    exact (marks_args as h.1).comp (Marks.plain (marks_arg a h.2.2))
theorem marks_arg : ∀ d : M4Argument, CmdLists S d.tokens → Marks S (buildArg d)
  | .empty, _ => Marks.id
  | .emptyQuoted, _ => Marks.id
  | .quoted body, h => by
    simp only [M4Argument.tokens, CmdLists.append, CmdLists.cons] at h
    exact marks_lines body h.2.1
  | .word _, _ => Marks.id
end

theorem marks_comments (cs : List Nat) :
    Marks S (fun b => cs.foldl (fun b c => b.add (leaf (.plain .comment none) c)) b) := by
  induction cs with
  | nil => exact Marks.id
  | cons c cs ih => exact (Marks.add (by simp [leaf, Tree.preorder, Tree.preorderList])).comp ih

theorem marks_ifDef (d : IfDef) (h : CmdLists S d.tokens) : Marks S (buildIfDef d) := by
  rw [IfDef.tokens, CmdLists.append, CmdLists.append, CmdLists.append] at h
  refine Marks.block h.1.1.2.command ?_
  have h := h.1.2
  cases hb : d.body with
  | none => exact Marks.id
  | some b => rw [hb] at h; exact marks_lines b h

theorem marks_ifLines (ls : List IfLine) (h : CmdLists S (ls.flatMap IfLine.tokens)) :
    Marks S (fun b => ls.foldl buildIfLine b) := by
  induction ls with
  | nil => exact Marks.id
  | cons l ls ih =>
    rw [List.flatMap_cons, CmdLists.append] at h
    have hl : Marks S (fun b => buildIfLine b l) := by
      cases l with
      | defn d => exact marks_ifDef d h.1
      | comment n => exact Marks.add (by simp [leaf, Tree.preorder, Tree.preorderList])
    exact hl.comp (ih h.2)

/-- What the exceptions at the nodes of a file are: those that a command in the file lists. -/
theorem marks_file {f : SourceFile} {expected : PlainFlavor} {answers : List Bool} (h : CmdLists S f.tokens) :
    MarkedBy S (buildFile f expected answers).nodes := by
  have root : ∀ d, MarkedBy S [leaf d 0] := fun d =>
    .cons (fun _ he => nomatch he) (fun j hj => by simp [Tree.preorderList] at hj)
      (fun j hj => by simp [Tree.preorderList] at hj)
  cases f with
  | empty => exact root _
  | te cs hd b =>
    rw [SourceFile.tokens, CmdLists.append] at h
    exact ((marks_comments cs).comp ((Marks.add (t := headerNode hd)
      (by simp [headerNode, leaf, Tree.preorder, Tree.preorderList])).comp (marks_lines b h.2))) _ (root _)
  | iface cs d ls =>
    rw [SourceFile.tokens, CmdLists.append, CmdLists.append] at h
    exact ((marks_comments cs).comp ((marks_ifDef d h.1.2).comp (marks_ifLines ls h.2))) _ (root _)
  | spt cs _ _ => exact marks_comments cs _ (root _)
  | av cs _ _ => exact marks_comments cs _ (root _)
  | comments c cs => exact marks_comments (c :: cs) _ (root _)

end

end Selint
