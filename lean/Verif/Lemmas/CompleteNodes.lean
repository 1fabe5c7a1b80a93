import Verif.Spec.Parse
import Verif.Lemmas.ParseShape
import Verif.Props.Statements
import Verif.Spec.Memory
/-! # The nodes of a text that is read are complete -/

namespace Selint
open Spec

/-- All nodes of a forest are complete. -/
def AllComplete (ts : List Tree) : Prop := ∀ i ∈ Tree.preorderList ts, Complete i.data

namespace AllComplete

theorem nil : AllComplete [] := by intro i hi; cases hi

theorem cons {t : Tree} {ts : List Tree} : AllComplete (t :: ts) ↔ AllComplete [t] ∧ AllComplete ts := by
  simp [AllComplete, Tree.preorderList, or_imp, forall_and]

theorem append {a b : List Tree} : AllComplete (a ++ b) ↔ AllComplete a ∧ AllComplete b := by
  induction a with
  | nil => simp [nil]
  | cons t ts ih => rw [List.cons_append, cons, ih, cons (t := t) (ts := ts), and_assoc]

theorem all {ts : List Tree} : AllComplete ts ↔ ∀ t ∈ ts, AllComplete [t] := by
  induction ts with
  | nil => simp [nil]
  | cons t ts ih => rw [cons, ih]; simp

theorem node {i : NodeInfo} {cs : List Tree} :
    AllComplete [.mk i cs] ↔ Complete i.data ∧ AllComplete cs := by
  simp [AllComplete, Tree.preorderList, Tree.preorder, or_imp, forall_and]

theorem leaf {data : NodeData} {line : Nat} (h : Complete data) :
    AllComplete [Spec.leaf data line] := node.2 ⟨h, nil⟩

theorem block {data : NodeData} {line : Nat} {cs : List Tree} (hd : Complete data) (h : AllComplete cs) :
    AllComplete [blockNode data line cs] :=
  node.2 ⟨hd, cons.2 ⟨leaf trivial, h⟩⟩

end AllComplete

theorem simple_allComplete (line : Nat) (s : Simple) : AllComplete [simpleNode line s] := by
  refine AllComplete.node.2 ⟨?_, ?_⟩
  · cases s with
    | roleAllow f t => exact SList.value_ne
    | typeAlias n l => exact Option.some_ne_none _
    | permissive n => exact Option.some_ne_none _
    | call n a => cases a <;> exact trivial
    | _ => exact trivial
  · refine AllComplete.all.2 fun t ht => ?_
    obtain ⟨a, _, rfl⟩ := List.mem_map.1 ht
    exact AllComplete.leaf (Option.some_ne_none _)

mutual
theorem reqLines_allComplete : ∀ d : ReqLines, AllComplete (reqLinesNodes d)
  | .one l => by simpa only [reqLinesNodes] using reqLine_allComplete l
  | .more ls l => by
    simpa only [reqLinesNodes] using AllComplete.append.2 ⟨reqLines_allComplete ls, reqLine_allComplete l⟩
theorem reqLine_allComplete : ∀ d : ReqLine, AllComplete (reqLineNodes d)
  | .bare s => by simpa only [reqLineNodes] using reqStmt_allComplete s
  | .withCommand s _ => by simpa only [reqLineNodes] using reqStmt_allComplete s
theorem reqStmt_allComplete : ∀ d : ReqStmt, AllComplete (reqStmtNodes d)
  | .decls line fl _ _ names => by
    simp only [reqStmtNodes]
    refine AllComplete.all.2 fun t ht => ?_
    obtain ⟨n, hn, rfl⟩ := List.mem_map.1 ht
    exact AllComplete.leaf trivial
  | .cls line n l => by simp only [reqStmtNodes]; exact AllComplete.leaf trivial
  | .ifdef line _ q _ body => by
    simp only [reqStmtNodes]; exact AllComplete.block trivial (reqLines_allComplete body)
  | .comment => by simp only [reqStmtNodes]; exact AllComplete.nil
end

mutual
theorem lines_allComplete : ∀ d : Lines, AllComplete (linesNodes d)
  | .one l => by simpa only [linesNodes] using line_allComplete l
  | .more ls l => by
    simpa only [linesNodes] using AllComplete.append.2 ⟨lines_allComplete ls, line_allComplete l⟩
theorem line_allComplete : ∀ d : Line, AllComplete (lineNodes d)
  | .bare s => by simpa only [lineNodes] using stmt_allComplete s
  | .withCommand s _ => by simpa only [lineNodes] using stmt_allComplete s
theorem stmt_allComplete : ∀ d : Stmt, AllComplete (stmtNodes d)
  | .silent _ => by simp only [stmtNodes]; exact AllComplete.nil
  | .simple line s => by simp only [stmtNodes]; exact simple_allComplete line s
  | .optional line _ body => by
    simp only [stmtNodes]; exact AllComplete.block trivial (lines_allComplete body)
  | .optionalEmpty line _ => by
    simp only [stmtNodes]; exact AllComplete.block trivial AllComplete.nil
  | .optionalElse line _ body elseLine els => by
    simp only [stmtNodes]
    exact AllComplete.cons.2 ⟨AllComplete.block trivial (lines_allComplete body),
      AllComplete.block trivial (lines_allComplete els)⟩
  | .genRequire line _ _ body => by
    simp only [stmtNodes]; exact AllComplete.block trivial (reqLines_allComplete body)
  | .genRequireUnquoted line _ body => by
    simp only [stmtNodes]; exact AllComplete.block trivial (reqLines_allComplete body)
  | .require line _ body => by
    simp only [stmtNodes]; exact AllComplete.block trivial (reqLines_allComplete body)
  | .ifdef line _ _ args => by
    simp only [stmtNodes]; exact AllComplete.block trivial (args_allComplete args)
  | .ifelse line args => by
    simp only [stmtNodes]; exact AllComplete.block trivial (args_allComplete args)
  | .userdebugOrEng body => by simpa only [stmtNodes] using lines_allComplete body
  | .tunable line _ _ args => by
    simp only [stmtNodes]; exact AllComplete.block trivial (args_allComplete args)
  | .boolean line _ _ body => by
    simp only [stmtNodes]; exact AllComplete.block trivial (lines_allComplete body)
  | .booleanElse line _ _ body els => by
    simp only [stmtNodes]
    exact AllComplete.block trivial (AllComplete.append.2 ⟨lines_allComplete body, lines_allComplete els⟩)
  | .define line _ _ _ => by
    simp only [stmtNodes]; exact AllComplete.block trivial AllComplete.nil
theorem args_allComplete : ∀ d : M4Args, AllComplete (argsNodes d)
  | .one line a => by simp only [argsNodes]; exact AllComplete.block trivial (arg_allComplete a)
  | .more as line a => by
    simp only [argsNodes]
    exact AllComplete.append.2 ⟨args_allComplete as, AllComplete.block trivial (arg_allComplete a)⟩
theorem arg_allComplete : ∀ d : M4Argument, AllComplete (argNodes d)
  | .empty => by simp only [argNodes]; exact AllComplete.nil
  | .emptyQuoted => by simp only [argNodes]; exact AllComplete.nil
  | .quoted body => by simpa only [argNodes] using lines_allComplete body
  | .word _ => by simp only [argNodes]; exact AllComplete.nil
end

theorem ifDef_allComplete (d : IfDef) : AllComplete [ifDefNode d] := by
  unfold ifDefNode
  refine AllComplete.block ?_ ?_
  · cases d.isTemplate <;> exact trivial
  · split
    · exact AllComplete.nil
    · exact lines_allComplete _

theorem ifLine_allComplete (l : IfLine) : AllComplete [ifLineNode l] := by
  cases l with
  | defn d => exact ifDef_allComplete d
  | _ => exact AllComplete.leaf trivial

theorem comments_allComplete (cs : List Nat) : AllComplete (cs.map (leaf (.plain .comment none))) := by
  refine AllComplete.all.2 fun t ht => ?_
  obtain ⟨a, _, rfl⟩ := List.mem_map.1 ht
  exact AllComplete.leaf trivial

/-- All nodes of a text are complete. -/
theorem file_allComplete {expected : PlainFlavor} (he : Complete (.plain expected none)) (f : SourceFile) :
    AllComplete (fileNodes expected f) := by
  cases f with
  | empty => exact AllComplete.leaf trivial
  | te cs h b =>
    exact AllComplete.cons.2 ⟨AllComplete.leaf he, AllComplete.append.2 ⟨comments_allComplete cs,
      AllComplete.cons.2 ⟨AllComplete.leaf trivial, lines_allComplete b⟩⟩⟩
  | iface cs d ls =>
    refine AllComplete.cons.2 ⟨AllComplete.leaf he, AllComplete.append.2 ⟨comments_allComplete cs,
      AllComplete.cons.2 ⟨ifDef_allComplete d, AllComplete.all.2 fun t ht => ?_⟩⟩⟩
    obtain ⟨l, _, rfl⟩ := List.mem_map.1 ht
    exact ifLine_allComplete l
  | spt cs _ _ => exact AllComplete.cons.2 ⟨AllComplete.leaf he, comments_allComplete cs⟩
  | av cs _ _ => exact AllComplete.cons.2 ⟨AllComplete.leaf he, comments_allComplete cs⟩
  | comments c cs =>
    exact AllComplete.cons.2 ⟨AllComplete.leaf he, comments_allComplete (c :: cs)⟩

end Selint
