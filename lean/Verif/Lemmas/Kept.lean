import Verif.Lemmas.BareLoc
/-! # The tree of a file is the tree of its text without some calls -/

namespace Selint

open Spec

namespace Spec

/-! ## The tree that is built -/

mutual
/-- A tree without the calls whose answer is no; what is left of the answers comes second. -/
def siftTree : Tree → List Bool → List Tree × List Bool
  | .mk i cs, as =>
    if (callOf i).isSome then
      match as with
      | [] => ([.mk i cs], [])
      | true :: as => ([.mk i cs], as)
      | false :: as => ([], as)
    else ([.mk i (siftTrees cs as).1], (siftTrees cs as).2)
/-- Trees without the calls whose answer is no. -/
def siftTrees : List Tree → List Bool → List Tree × List Bool
  | [], as => ([], as)
  | t :: ts, as => ((siftTree t as).1 ++ (siftTrees ts (siftTree t as).2).1, (siftTrees ts (siftTree t as).2).2)
end

theorem siftTree_call {i : NodeInfo} (h : (callOf i).isSome = true) (cs : List Tree) (as : List Bool) :
    siftTree (.mk i cs) as = match as with
      | [] => ([.mk i cs], [])
      | true :: as => ([.mk i cs], as)
      | false :: as => ([], as) := by
  rw [siftTree.eq_def]
  simp only [h, if_true]

theorem siftTree_other {i : NodeInfo} (h : callOf i = none) (cs : List Tree) (as : List Bool) :
    siftTree (.mk i cs) as = ([.mk i (siftTrees cs as).1], (siftTrees cs as).2) := by
  rw [siftTree.eq_def]
  simp only [h, Option.isSome_none, Bool.false_eq_true, if_false]

theorem siftTrees_append (a b : List Tree) (as : List Bool) :
    siftTrees (a ++ b) as =
      ((siftTrees a as).1 ++ (siftTrees b (siftTrees a as).2).1, (siftTrees b (siftTrees a as).2).2) := by
  induction a generalizing as with
  | nil => simp [siftTrees]
  | cons t a ih => simp only [List.cons_append, siftTrees, ih, List.append_assoc]

theorem siftTrees_one (t : Tree) (as : List Bool) : siftTrees [t] as = siftTree t as := by
  simp [siftTrees]

mutual
theorem siftTree_quiet : ∀ (t : Tree) (as : List Bool), (∀ i ∈ t.preorder, callOf i = none) → siftTree t as = ([t], as)
  | .mk i cs, as, h => by
    rw [Tree.preorder] at h
    rw [siftTree_other (h i (by simp)), siftTrees_quiet cs as fun j hj => h j (by simp [hj])]
theorem siftTrees_quiet : ∀ (ts : List Tree) (as : List Bool), (∀ i ∈ Tree.preorderList ts, callOf i = none) →
    siftTrees ts as = (ts, as)
  | [], as, _ => rfl
  | t :: ts, as, h => by
    rw [Tree.preorderList] at h
    rw [siftTrees, siftTree_quiet t as fun i hi => h i (by simp [hi])]
    simp only
    rw [siftTrees_quiet ts as fun i hi => h i (by simp [hi])]
    simp
end

/-- `f` adds the trees of `ts`, without the calls that fail. -/
def Plants (f : Build → Build) (ts : List Tree) : Prop :=
  ∀ b, bareList (f b).nodes.reverse = bareList b.nodes.reverse ++ (siftTrees ts b.answers).1 ∧
    (f b).answers = (siftTrees ts b.answers).2

namespace Plants

theorem id : Plants (fun b => b) [] := fun b => by simp [siftTrees]

theorem comp {f g : Build → Build} {m n : List Tree} (hf : Plants f m) (hg : Plants g n) :
    Plants (fun b => g (f b)) (m ++ n) := by
  intro b
  obtain ⟨h1, h2⟩ := hf b
  obtain ⟨h3, h4⟩ := hg (f b)
  rw [h2] at h3 h4
  rw [siftTrees_append]
  exact ⟨by rw [h3, h1, List.append_assoc], h4⟩

theorem add {t : Tree} (ht : bare t = t) (hq : ∀ i ∈ t.preorder, callOf i = none) : Plants (fun b => b.add t) [t] := by
  intro b
  rw [siftTrees_one, siftTree_quiet t _ hq]
  exact ⟨by simp [Build.add, bareList_eq_map, ht], rfl⟩

theorem call {i : NodeInfo} (hi : (callOf i).isSome = true) (he : i.exceptions = none) :
    Plants (fun b => b.call (.mk i [])) [.mk i []] := by
  intro b
  have hb : bareInfo i = i := by
    obtain ⟨d, x, l⟩ := i; cases he; rfl
  rw [siftTrees_one, siftTree_call hi]
  simp only [Build.call]
  split <;> rename_i h <;> simp [Build.add, bareList_eq_map, hb, h]

theorem command {f : Build → Build} {n : List Tree} {c : Str} (hf : Plants f n) : Plants (fun b => (f b).command c) n := by
  intro b
  obtain ⟨h1, h2⟩ := hf b
  show bareList ((f b).command c).nodes.reverse = _ ∧ ((f b).command c).answers = _
  unfold Build.command
  split
  · exact ⟨h1, h2⟩
  · rename_i t ts e
    refine ⟨?_, h2⟩
    rw [← h1, e]
    obtain ⟨i, cs⟩ := t
    simp [bareList_eq_map, bareInfo]

theorem block {f : Build → Build} {n : List Tree} {data : NodeData} {line : Nat} {cmd : Option Str}
    (hd : ∀ c, data ≠ .ifCall c) (hf : Plants f n) : Plants (Build.block data line cmd f) [blockNode data line n] := by
  intro b
  obtain ⟨h1, h2⟩ := hf ⟨[startMarker line], b.answers⟩
  have hc : callOf ⟨data, none, line⟩ = none := by
    unfold callOf
    cases data <;> first | rfl | exact absurd rfl (hd _)
  have e : siftTrees (startMarker line :: n) b.answers = (startMarker line :: (siftTrees n b.answers).1, (siftTrees n b.answers).2) := by
    rw [siftTrees, siftTree_quiet (startMarker line) _ (by simp [startMarker, leaf, Tree.preorder, Tree.preorderList, callOf])]
    rfl
  rw [siftTrees_one, blockNode, siftTree_other hc, e]
  refine ⟨?_, h2⟩
  simp only [Build.block, List.reverse_cons, bareList_eq_map, List.map_append, List.map_cons, List.map_nil] at h1 ⊢
  simp only [bare_mk, h1]
  simp [startMarker, bare_leaf, bareInfo]

theorem decls (fl : DeclFlavor) (line : Nat) (ns : List Str) :
    Plants (fun b => ns.foldl (fun b n => b.add (leaf (.decl ⟨fl, n, []⟩) line)) b)
      (ns.map fun n => leaf (.decl ⟨fl, n, []⟩) line) := by
  induction ns with
  | nil => exact id
  | cons n ns ih =>
    exact (add (bare_leaf _ _) (by simp [leaf, Tree.preorder, Tree.preorderList, callOf])).comp ih

end Plants

mutual
theorem plants_reqLines : ∀ d : ReqLines, Plants (buildReqLines d) (reqLinesNodes d)
  | .one l => plants_reqLine l
  | .more ls l => (plants_reqLines ls).comp (plants_reqLine l)
theorem plants_reqLine : ∀ d : ReqLine, Plants (buildReqLine d) (reqLineNodes d)
  | .bare s => plants_reqStmt s
  | .withCommand s _ => (plants_reqStmt s).command
theorem plants_reqStmt : ∀ d : ReqStmt, Plants (buildReqStmt d) (reqStmtNodes d)
  | .decls line fl _ _ names => Plants.decls fl line names.value
  | .cls line n l => Plants.add (bare_leaf _ _) (by simp [leaf, Tree.preorder, Tree.preorderList, callOf])
  | .ifdef line _ _ _ body => Plants.block (by simp) (plants_reqLines body)
  | .comment => Plants.id
end

mutual
theorem plants_lines : ∀ d : Lines, Plants (buildLines d) (linesNodes d)
  | .one l => plants_line l
  | .more ls l => (plants_lines ls).comp (plants_line l)
theorem plants_line : ∀ d : Line, Plants (buildLine d) (lineNodes d)
  | .bare s => plants_stmt s
  | .withCommand s _ => (plants_stmt s).command
theorem plants_stmt : ∀ d : Stmt, Plants (buildStmt d) (stmtNodes d)
  | .silent _ => Plants.id
  | .simple line s => by
    intro b
    simp only [buildStmt, stmtNodes]
    cases hs : isCall s with
    | true =>
      simp only [if_true]
      cases s <;> simp [isCall] at hs
      rename_i n a
      cases a <;> exact Plants.call rfl rfl b
    | false =>
      simp only [Bool.false_eq_true, if_false]
      exact Plants.add (bare_simpleNode line s) (fun i hi => (sifts_simple line s hs i hi).1) b
  | .optional line cmd body => Plants.block (by simp) (plants_lines body)
  | .optionalEmpty line cmd => Plants.block (by simp) Plants.id
  | .optionalElse line cmd body elseLine els =>
    (Plants.block (by simp) (plants_lines body)).comp (Plants.block (by simp) (plants_lines els))
  | .genRequire line cmd cmd' body => Plants.block (by simp) (plants_reqLines body)
  | .genRequireUnquoted line cmd body => Plants.block (by simp) (plants_reqLines body)
  | .require line cmd body => Plants.block (by simp) (plants_reqLines body)
  | .ifdef line _ _ args => Plants.block (by simp) (plants_args args)
  | .ifelse line args => Plants.block (by simp) (plants_args args)
  | .userdebugOrEng body => plants_lines body
  | .tunable line _ _ args => Plants.block (by simp) (plants_args args)
  | .boolean line cmd _ body => Plants.block (by simp) (plants_lines body)
  | .booleanElse line cmd _ body els => Plants.block (by simp) ((plants_lines body).comp (plants_lines els))
  | .define line _ _ _ => Plants.block (by simp) Plants.id
theorem plants_args : ∀ d : M4Args, Plants (buildArgs d) (argsNodes d)
  | .one line a => Plants.block (by simp) (plants_arg a)
  | .more as line a => (plants_args as).comp (Plants.block (by simp) (plants_arg a))
theorem plants_arg : ∀ d : M4Argument, Plants (buildArg d) (argNodes d)
  | .empty => Plants.id
  | .emptyQuoted => Plants.id
  | .quoted body => plants_lines body
  | .word _ => Plants.id
end

theorem plants_ifDef (d : IfDef) : Plants (buildIfDef d) [ifDefNode d] := by
  unfold buildIfDef ifDefNode
  cases d.body with
  | none => exact Plants.block (by simp) Plants.id
  | some b => exact Plants.block (by simp) (plants_lines b)

theorem plants_ifLines (ls : List IfLine) : Plants (fun b => ls.foldl buildIfLine b) (ls.map ifLineNode) := by
  induction ls with
  | nil => exact Plants.id
  | cons l ls ih =>
    have h : Plants (fun b => buildIfLine b l) [ifLineNode l] := by
      cases l with
      | defn d => exact plants_ifDef d
      | comment n => exact Plants.add (bare_leaf _ _) (by simp [leaf, Tree.preorder, Tree.preorderList, callOf])
    exact h.comp ih

theorem plants_comments (cs : List Nat) :
    Plants (fun b => cs.foldl (fun b c => b.add (leaf (.plain .comment none) c)) b)
      (cs.map (leaf (.plain .comment none))) := by
  induction cs with
  | nil => exact Plants.id
  | cons c cs ih =>
    exact (Plants.add (bare_leaf _ _) (by simp [leaf, Tree.preorder, Tree.preorderList, callOf])).comp ih

/-- The tree of a built file: that of the derivation without the calls that fail. -/
theorem buildFile_trees (f : SourceFile) (expected : PlainFlavor) (answers : List Bool) :
    bareList (buildFile f expected answers).nodes.reverse = (siftTrees (fileNodes expected f) answers).1 := by
  have root : ∀ {g : Build → Build} {ns : List Tree}, Plants g ns →
      bareList (g ⟨[leaf (.plain expected none) 0], answers⟩).nodes.reverse =
        (siftTrees (leaf (.plain expected none) 0 :: ns) answers).1 := by
    intro g ns hg
    obtain ⟨h1, -⟩ := hg ⟨[leaf (.plain expected none) 0], answers⟩
    rw [siftTrees, siftTree_quiet (leaf (.plain expected none) 0) _
      (by simp [leaf, Tree.preorder, Tree.preorderList, callOf]), h1]
    simp [bareList_eq_map, bare_leaf]
  cases f with
  | empty =>
    rw [fileNodes, siftTrees_one, siftTree_quiet _ _ (by simp [leaf, Tree.preorder, Tree.preorderList, callOf])]
    simp [buildFile, bareList_eq_map, bare_leaf]
  | te cs hd b =>
    have := root (((plants_comments cs).comp (Plants.add (t := headerNode hd) (bare_leaf _ _)
      (by simp [headerNode, leaf, Tree.preorder, Tree.preorderList, callOf]))).comp (plants_lines b))
    simpa [fileNodes, buildFile] using this
  | iface cs d ls =>
    have := root (((plants_comments cs).comp (plants_ifDef d)).comp (plants_ifLines ls))
    simpa [fileNodes, buildFile] using this
  | spt cs _ _ => exact root (plants_comments cs)
  | av cs _ _ => exact root (plants_comments cs)
  | comments c cs => exact root (plants_comments (c :: cs))

/-! ## Where calls can stand -/

/-- Blocks without statements of their own: a require block has declarations, `ifelse` has arguments. -/
def closed (i : NodeInfo) : Bool := isRequireBlock i || i.flavor == .ifelse

mutual
/-- Calls have nothing below them, and none stands directly in a closed block. -/
def Neat : Tree → Prop
  | .mk i cs => ((callOf i).isSome = true → cs = []) ∧ (closed i = true → ∀ t ∈ cs, callOf t.info = none) ∧ NeatAll cs
/-- The same for all trees of a list. -/
def NeatAll : List Tree → Prop
  | [] => True
  | t :: ts => Neat t ∧ NeatAll ts
end

theorem neatAll_iff (ts : List Tree) : NeatAll ts ↔ ∀ t ∈ ts, Neat t := by
  induction ts with
  | nil => simp [NeatAll]
  | cons t ts ih => simp [NeatAll, ih]

theorem neatAll_append {a b : List Tree} (ha : NeatAll a) (hb : NeatAll b) : NeatAll (a ++ b) := by
  rw [neatAll_iff] at *
  intro t ht
  rcases List.mem_append.1 ht with h | h
  · exact ha t h
  · exact hb t h

theorem neat_leaf (d : NodeData) (n : Nat) : Neat (leaf d n) := by
  simp [leaf, Neat, NeatAll]

theorem neat_open {data : NodeData} {line : Nat} {n : List Tree} (hd : ∀ c, data ≠ .ifCall c)
    (ho : closed ⟨data, none, line⟩ = false) (hn : NeatAll n) : Neat (blockNode data line n) := by
  have hc : callOf ⟨data, none, line⟩ = none := by
    unfold callOf
    cases data <;> first | rfl | exact absurd rfl (hd _)
  rw [blockNode, Neat]
  exact ⟨by simp [hc], by simp [ho], neat_leaf _ _, hn⟩

theorem neat_closed {data : NodeData} {line : Nat} {n : List Tree} (hd : ∀ c, data ≠ .ifCall c)
    (hq : ∀ t ∈ n, callOf t.info = none) (hn : NeatAll n) : Neat (blockNode data line n) := by
  have hc : callOf ⟨data, none, line⟩ = none := by
    unfold callOf
    cases data <;> first | rfl | exact absurd rfl (hd _)
  rw [blockNode, Neat]
  refine ⟨by simp [hc], fun _ t ht => ?_, neat_leaf _ _, hn⟩
  rcases List.mem_cons.1 ht with rfl | ht
  · rfl
  · exact hq t ht

mutual
theorem neat_reqLines : ∀ d : ReqLines, NeatAll (reqLinesNodes d) ∧ ∀ t ∈ reqLinesNodes d, callOf t.info = none
  | .one l => neat_reqLine l
  | .more ls l => by
    obtain ⟨h1, h2⟩ := neat_reqLines ls
    obtain ⟨h3, h4⟩ := neat_reqLine l
    refine ⟨neatAll_append h1 h3, fun t ht => ?_⟩
    rcases List.mem_append.1 ht with h | h
    · exact h2 t h
    · exact h4 t h
theorem neat_reqLine : ∀ d : ReqLine, NeatAll (reqLineNodes d) ∧ ∀ t ∈ reqLineNodes d, callOf t.info = none
  | .bare s => neat_reqStmt s
  | .withCommand s _ => neat_reqStmt s
theorem neat_reqStmt : ∀ d : ReqStmt, NeatAll (reqStmtNodes d) ∧ ∀ t ∈ reqStmtNodes d, callOf t.info = none
  | .decls line fl _ _ names => by
    rw [reqStmtNodes, neatAll_iff]
    constructor <;> intro t ht <;> obtain ⟨n, -, rfl⟩ := List.mem_map.1 ht
    · exact neat_leaf _ _
    · rfl
  | .cls line n l => by
    rw [reqStmtNodes]
    exact ⟨⟨neat_leaf _ _, trivial⟩, fun t ht => by cases List.mem_singleton.1 ht; rfl⟩
  | .ifdef line _ _ _ body => by
    rw [reqStmtNodes]
    exact ⟨⟨neat_open (by simp) rfl (neat_reqLines body).1, trivial⟩, fun t ht => by cases List.mem_singleton.1 ht; rfl⟩
  | .comment => ⟨trivial, by simp [reqStmtNodes]⟩
end

theorem neat_simple (line : Nat) (s : Simple) : Neat (simpleNode line s) := by
  have hcl : closed ⟨simpleData s, none, line⟩ = false := by
    cases s <;> try rfl
    rename_i n a; cases a <;> rfl
  rw [simpleNode, Neat]
  refine ⟨fun h => ?_, by simp [hcl], ?_⟩
  · cases s <;> first | rfl | (simp [callOf, simpleData] at h)
  · rw [neatAll_iff]
    intro t ht
    obtain ⟨a, -, rfl⟩ := List.mem_map.1 ht
    exact neat_leaf _ _

mutual
theorem neat_lines : ∀ d : Lines, NeatAll (linesNodes d)
  | .one l => neat_line l
  | .more ls l => neatAll_append (neat_lines ls) (neat_line l)
theorem neat_line : ∀ d : Line, NeatAll (lineNodes d)
  | .bare s => neat_stmt s
  | .withCommand s _ => neat_stmt s
theorem neat_stmt : ∀ d : Stmt, NeatAll (stmtNodes d)
  | .silent _ => trivial
  | .simple line s => ⟨neat_simple line s, trivial⟩
  | .optional line cmd body => ⟨neat_open (by simp) rfl (neat_lines body), trivial⟩
  | .optionalEmpty line cmd => ⟨neat_open (by simp) rfl trivial, trivial⟩
  | .optionalElse line cmd body elseLine els =>
    ⟨neat_open (by simp) rfl (neat_lines body), neat_open (by simp) rfl (neat_lines els), trivial⟩
  | .genRequire line cmd cmd' body => ⟨neat_closed (by simp) (neat_reqLines body).2 (neat_reqLines body).1, trivial⟩
  | .genRequireUnquoted line cmd body => ⟨neat_closed (by simp) (neat_reqLines body).2 (neat_reqLines body).1, trivial⟩
  | .require line cmd body => ⟨neat_closed (by simp) (neat_reqLines body).2 (neat_reqLines body).1, trivial⟩
  | .ifdef line _ _ args => ⟨neat_open (by simp) rfl (neat_args args).1, trivial⟩
  | .ifelse line args => ⟨neat_closed (by simp) (neat_args args).2 (neat_args args).1, trivial⟩
  | .userdebugOrEng body => neat_lines body
  | .tunable line _ _ args => ⟨neat_open (by simp) rfl (neat_args args).1, trivial⟩
  | .boolean line cmd _ body => ⟨neat_open (by simp) rfl (neat_lines body), trivial⟩
  | .booleanElse line cmd _ body els => ⟨neat_open (by simp) rfl (neatAll_append (neat_lines body) (neat_lines els)), trivial⟩
  | .define line _ _ _ => ⟨neat_open (by simp) rfl trivial, trivial⟩
theorem neat_args : ∀ d : M4Args, NeatAll (argsNodes d) ∧ ∀ t ∈ argsNodes d, callOf t.info = none
  | .one line a => ⟨⟨neat_open (by simp) rfl (neat_arg a), trivial⟩, fun t ht => by
      rw [argsNodes] at ht; cases List.mem_singleton.1 ht; rfl⟩
  | .more as line a => ⟨neatAll_append (neat_args as).1 ⟨neat_open (by simp) rfl (neat_arg a), trivial⟩, fun t ht => by
      rw [argsNodes] at ht
      rcases List.mem_append.1 ht with h | h
      · exact (neat_args as).2 t h
      · cases List.mem_singleton.1 h; rfl⟩
theorem neat_arg : ∀ d : M4Argument, NeatAll (argNodes d)
  | .empty => trivial
  | .emptyQuoted => trivial
  | .quoted body => neat_lines body
  | .word _ => trivial
end

theorem neat_ifDef (d : IfDef) : Neat (ifDefNode d) := by
  unfold ifDefNode
  refine neat_open (by simp) ?_ ?_
  · cases d.isTemplate <;> rfl
  · cases d.body with
    | none => exact trivial
    | some b => exact neat_lines b

theorem neat_comments (cs : List Nat) : NeatAll (cs.map (leaf (.plain .comment none))) := by
  rw [neatAll_iff]
  intro t ht
  obtain ⟨a, -, rfl⟩ := List.mem_map.1 ht
  exact neat_leaf _ _

theorem neat_file (e : PlainFlavor) (f : SourceFile) : NeatAll (fileNodes e f) := by
  cases f with
  | empty => exact ⟨neat_leaf _ _, trivial⟩
  | te cs h b => exact ⟨neat_leaf _ _, neatAll_append (neat_comments cs) ⟨neat_leaf _ _, neat_lines b⟩⟩
  | iface cs d ls =>
    refine ⟨neat_leaf _ _, neatAll_append (neat_comments cs) ⟨neat_ifDef d, ?_⟩⟩
    rw [neatAll_iff]
    intro t ht
    obtain ⟨l, -, rfl⟩ := List.mem_map.1 ht
    cases l with
    | defn d => exact neat_ifDef d
    | comment n => exact neat_leaf _ _
  | spt cs _ _ => exact ⟨neat_leaf _ _, neat_comments cs⟩
  | av cs _ _ => exact ⟨neat_leaf _ _, neat_comments cs⟩
  | comments c cs => exact ⟨neat_leaf _ _, neat_comments (c :: cs)⟩

/-! ## Trees without some of the calls -/

/-- The first list of trees is the second without some of the calls for which `P` holds, and with
exceptions at the nodes. -/
inductive Without (P : IfCallData → Prop) : List Tree → List Tree → Prop
  | nil : Without P [] []
  | keep {i j : NodeInfo} {cs ds ts us : List Tree} (hi : bareInfo i = j)
      (hc : closed j = true → ∀ t ∈ ds, callOf t.info = none) (hcs : Without P cs ds) (hts : Without P ts us) :
      Without P (.mk i cs :: ts) (.mk j ds :: us)
  | drop {j : NodeInfo} {c : IfCallData} {ts us : List Tree} (hj : callOf j = some c) (hp : P c) (hts : Without P ts us) :
      Without P ts (.mk j [] :: us)

/-- The same for single nodes that are in both. -/
def WithoutIn (P : IfCallData → Prop) (t u : Tree) : Prop :=
  bareInfo t.info = u.info ∧ (closed u.info = true → ∀ t ∈ u.children, callOf t.info = none) ∧
    Without P t.children u.children

variable {P : IfCallData → Prop}

theorem Without.cons {t u : Tree} {ts us : List Tree} (h : WithoutIn P t u) (hts : Without P ts us) :
    Without P (t :: ts) (u :: us) := by
  obtain ⟨i, cs⟩ := t
  obtain ⟨j, ds⟩ := u
  exact .keep h.1 h.2.1 h.2.2 hts

theorem Without.append {a b a' b' : List Tree} (h : Without P a a') (h' : Without P b b') : Without P (a ++ b) (a' ++ b') := by
  induction h with
  | nil => exact h'
  | keep hi hc hcs _ _ ih => exact .keep hi hc hcs ih
  | drop hj hp _ ih => exact .drop hj hp ih

theorem Without.reverse {a a' : List Tree} (h : Without P a a') : Without P a.reverse a'.reverse := by
  induction h with
  | nil => exact .nil
  | keep hi hc hcs _ _ ih =>
    rw [List.reverse_cons, List.reverse_cons]
    exact ih.append (.keep hi hc hcs .nil)
  | drop hj hp _ ih =>
    rw [List.reverse_cons]
    have := ih.append (.drop (ts := []) hj hp .nil)
    rwa [List.append_nil] at this

/-- A node of the smaller list has a counterpart. -/
theorem Without.split {a b us : List Tree} {t : Tree} (h : Without P (a ++ t :: b) us) :
    ∃ a' u b', us = a' ++ u :: b' ∧ Without P a a' ∧ WithoutIn P t u ∧ Without P b b' := by
  generalize hL : a ++ t :: b = L at h
  induction h generalizing a with
  | nil => simp at hL
  | keep hi hc hcs hts _ ih =>
    cases a with
    | nil =>
      simp only [List.nil_append, List.cons.injEq] at hL
      obtain ⟨rfl, rfl⟩ := hL
      exact ⟨[], _, _, rfl, .nil, ⟨hi, hc, hcs⟩, hts⟩
    | cons x a =>
      simp only [List.cons_append, List.cons.injEq] at hL
      obtain ⟨rfl, hL⟩ := hL
      obtain ⟨a', u, b', rfl, h1, h2, h3⟩ := ih hL
      exact ⟨_ :: a', u, b', rfl, .keep hi hc hcs h1, h2, h3⟩
  | drop hj hp _ ih =>
    obtain ⟨a', u, b', rfl, h1, h2, h3⟩ := ih hL
    exact ⟨_ :: a', u, b', rfl, .drop hj hp h1, h2, h3⟩

/-- A node of the larger list has a counterpart, or it is one of the calls left out. -/
theorem Without.split' {ts a' b' : List Tree} {u : Tree} (h : Without P ts (a' ++ u :: b')) :
    (∃ a t b, ts = a ++ t :: b ∧ Without P a a' ∧ WithoutIn P t u ∧ Without P b b') ∨
      ∃ c, callOf u.info = some c ∧ P c ∧ u.children = [] := by
  generalize hL : a' ++ u :: b' = L at h
  induction h generalizing a' with
  | nil => simp at hL
  | keep hi hc hcs hts _ ih =>
    cases a' with
    | nil =>
      simp only [List.nil_append, List.cons.injEq] at hL
      obtain ⟨rfl, rfl⟩ := hL
      exact .inl ⟨[], _, _, rfl, .nil, ⟨hi, hc, hcs⟩, hts⟩
    | cons x a =>
      simp only [List.cons_append, List.cons.injEq] at hL
      obtain ⟨rfl, hL⟩ := hL
      rcases ih hL with ⟨a, t, b, rfl, h1, h2, h3⟩ | h
      · exact .inl ⟨_ :: a, t, b, rfl, .keep hi hc hcs h1, h2, h3⟩
      · exact .inr h
  | drop hj hp hts ih =>
    cases a' with
    | nil =>
      simp only [List.nil_append, List.cons.injEq] at hL
      obtain ⟨rfl, rfl⟩ := hL
      exact .inr ⟨_, hj, hp, rfl⟩
    | cons x a =>
      simp only [List.cons_append, List.cons.injEq] at hL
      obtain ⟨rfl, hL⟩ := hL
      rcases ih hL with ⟨a, t, b, rfl, h1, h2, h3⟩ | h
      · exact .inl ⟨a, t, b, rfl, .drop hj hp h1, h2, h3⟩
      · exact .inr h

theorem Without.of_bare {ts us : List Tree} (h : Without P (bareList ts) us) : Without P ts us := by
  rw [bareList_eq_map] at h
  generalize hL : ts.map bare = L at h
  induction h generalizing ts with
  | nil => cases List.map_eq_nil_iff.1 hL; exact .nil
  | keep hi hc hcs hts ih1 ih2 =>
    obtain ⟨⟨i, cs⟩, ts, rfl, h1, h2⟩ := List.map_eq_cons_iff.1 hL
    rw [bare_mk, Tree.mk.injEq] at h1
    refine .keep (by rw [← hi, ← h1.1]; rfl) hc (ih1 h1.2) (ih2 h2)
  | drop hj hp _ ih => exact .drop hj hp (ih hL)

/-- If no call goes without a counterpart, only the exceptions differ. -/
theorem Without.bareList {ts us : List Tree} (h : Without P ts us) (hn : ∀ c ∈ callsOf us, ¬P c) : bareList ts = us := by
  rw [bareList_eq_map]
  induction h with
  | nil => rfl
  | keep hi hc hcs hts ih1 ih2 =>
    rename_i i j cs ds ts us
    have e : callsOf (.mk j ds :: us) = (callOf j).toList ++ callsOf ds ++ callsOf us := by
      simp only [callsOf, Tree.preorderList, Tree.preorder, List.cons_append, List.filterMap_cons, List.filterMap_append]
      cases callOf j <;> simp
    rw [e] at hn
    simp only [List.map_cons, bare_mk, hi]
    rw [ih1 fun c hc => hn c (by simp [hc]), ih2 fun c hc => hn c (by simp [hc])]
  | drop hj hp _ ih =>
    exact absurd hp (hn _ (by simp [callsOf, Tree.preorderList, Tree.preorder, hj]))

theorem Matched.split {α β : Type} {R : α → β → Prop} {as : List α} {bs bs' : List β} (h : Matched R as (bs ++ bs')) :
    ∃ a a', as = a ++ a' ∧ Matched R a bs ∧ Matched R a' bs' := by
  induction bs generalizing as with
  | nil => exact ⟨[], as, rfl, .nil, h⟩
  | cons b bs ih =>
    cases h with
    | cons hx ht =>
      obtain ⟨a, a', rfl, h1, h2⟩ := ih ht
      exact ⟨_ :: a, a', rfl, .cons hx h1, h2⟩

mutual
theorem siftTree_without {R : SelintError → IfCallData → Prop} (hR : ∀ e c, R e c → e ≠ .success → P c) :
    ∀ (t : Tree), Neat t → (∀ i ∈ t.preorder, i.exceptions = none) → ∀ (es : List SelintError), Matched R es (t.preorder.filterMap callOf) → ∀ more,
      Without P (siftTree t (es.map (fun e => decide (e = .success)) ++ more)).1 [t] ∧
        (siftTree t (es.map (fun e => decide (e = .success)) ++ more)).2 = more
  | .mk i cs, hn, hx, es, hm, more => by
    obtain ⟨h1, h2, h3⟩ := hn
    have hb : bareInfo i = i := by
      have := hx i (by simp [Tree.preorder])
      obtain ⟨d, x, l⟩ := i; cases this; rfl
    have hx' : ∀ i ∈ Tree.preorderList cs, i.exceptions = none := fun j hj => hx j (by simp [Tree.preorder, hj])
    cases hi : callOf i with
    | none =>
      rw [Tree.preorder, List.filterMap_cons, hi] at hm
      rw [siftTree_other hi]
      obtain ⟨h4, h5⟩ := siftTrees_without hR cs h3 hx' es hm more
      exact ⟨.keep hb h2 h4 .nil, h5⟩
    | some c =>
      cases h1 (by simp [hi])
      simp only [Tree.preorder, Tree.preorderList, List.filterMap_cons, hi, List.filterMap_nil] at hm
      rw [siftTree_call (by simp [hi])]
      cases hm with
      | cons hr ht =>
        cases ht
        rename_i e
        simp only [List.map_cons, List.map_nil, List.cons_append, List.nil_append]
        by_cases he : e = .success
        · rw [decide_eq_true he]
          exact ⟨.keep hb h2 .nil .nil, rfl⟩
        · rw [decide_eq_false he]
          exact ⟨.drop hi (hR e c hr he) .nil, rfl⟩
theorem siftTrees_without {R : SelintError → IfCallData → Prop} (hR : ∀ e c, R e c → e ≠ .success → P c) :
    ∀ (ts : List Tree), NeatAll ts → (∀ i ∈ Tree.preorderList ts, i.exceptions = none) → ∀ (es : List SelintError), Matched R es ((Tree.preorderList ts).filterMap callOf) → ∀ more,
      Without P (siftTrees ts (es.map (fun e => decide (e = .success)) ++ more)).1 ts ∧
        (siftTrees ts (es.map (fun e => decide (e = .success)) ++ more)).2 = more
  | [], _, _, es, hm, more => by
    cases hm
    exact ⟨.nil, rfl⟩
  | t :: ts, hn, hx, es, hm, more => by
    rw [Tree.preorderList, List.filterMap_append] at hm
    obtain ⟨es₁, es₂, rfl, h1, h2⟩ := Matched.split hm
    rw [siftTrees, List.map_append, List.append_assoc]
    have hx1 : ∀ i ∈ t.preorder, i.exceptions = none := fun j hj => hx j (by simp [Tree.preorderList, hj])
    have hx2 : ∀ i ∈ Tree.preorderList ts, i.exceptions = none := fun j hj => hx j (by simp [Tree.preorderList, hj])
    obtain ⟨h3, h4⟩ := siftTree_without hR t hn.1 hx1 es₁ h1 (es₂.map (fun e => decide (e = .success)) ++ more)
    rw [h4]
    obtain ⟨h5, h6⟩ := siftTrees_without hR ts hn.2 hx2 es₂ h2 more
    exact ⟨h3.append h5, h6⟩
end

/-! ## Places -/

/-- The enclosing nodes of two lists of siblings correspond. -/
inductive Around (P : IfCallData → Prop) : List Tree → List Tree → List Frame → List Frame → Prop
  | nil {s s' : List Tree} : Around P s s' [] []
  | cons {s s' : List Tree} {f f' : Frame} {fs fs' : List Frame} (hl : Without P f.lefts.reverse f'.lefts.reverse)
      (hf : WithoutIn P (.mk f.info s) (.mk f'.info s')) (hr : Without P f.rights f'.rights)
      (hu : Around P (f.lefts.reverse ++ .mk f.info s :: f.rights) (f'.lefts.reverse ++ .mk f'.info s' :: f'.rights) fs fs') :
      Around P s s' (f :: fs) (f' :: fs')

/-- The same place in a tree without some calls (`l`) and in the whole tree (`l'`). -/
structure SamePlace (P : IfCallData → Prop) (l l' : Loc) : Prop where
  focus : WithoutIn P l.focus l'.focus
  lefts : Without P l.lefts.reverse l'.lefts.reverse
  rights : Without P l.rights l'.rights
  around : Around P l.siblings l'.siblings l.ups l'.ups

theorem Around.of_plug {ups : List Frame} {s us : List Tree} (h : Without P (Loc.plug s ups) us) :
    ∃ s' ups', Loc.plug s' ups' = us ∧ Without P s s' ∧ Around P s s' ups ups' := by
  induction ups generalizing s with
  | nil => exact ⟨us, [], rfl, h, .nil⟩
  | cons f fs ih =>
    obtain ⟨s₁, ups', h1, h2, h3⟩ := ih h
    obtain ⟨a, ⟨j, s'⟩, b, rfl, h4, h5, h6⟩ := h2.split
    refine ⟨s', ⟨a.reverse, j, b⟩ :: ups', by simpa [Loc.plug] using h1, h5.2.2, .cons (by simpa using h4) h5 h6 (by simpa using h3)⟩

theorem Around.of_plug' {ups' : List Frame} {s' ts : List Tree} (h : Without P ts (Loc.plug s' ups')) (hne : s' ≠ []) :
    ∃ s ups, Loc.plug s ups = ts ∧ Without P s s' ∧ Around P s s' ups ups' := by
  induction ups' generalizing s' with
  | nil => exact ⟨ts, [], rfl, h, .nil⟩
  | cons f' fs' ih =>
    obtain ⟨s₁, ups, h1, h2, h3⟩ := ih h (by simp)
    rcases h2.split' with ⟨a, ⟨i, s⟩, b, rfl, h4, h5, h6⟩ | ⟨c, -, -, h4⟩
    · refine ⟨s, ⟨a.reverse, i, b⟩ :: ups, by simpa [Loc.plug] using h1, h5.2.2, .cons (by simpa using h4) h5 h6 (by simpa using h3)⟩
    · exact absurd h4 hne

/-- Every place of the smaller tree is one of the larger. -/
theorem Without.place {l : Loc} {us : List Tree} (h : Without P l.unzip us) : ∃ l' : Loc, l'.unzip = us ∧ SamePlace P l l' := by
  obtain ⟨t, ls, rs, ups⟩ := l
  obtain ⟨s', ups', h1, h2, h3⟩ := Around.of_plug h
  obtain ⟨a, u, b, rfl, h4, h5, h6⟩ := h2.split
  exact ⟨⟨u, a.reverse, b, ups'⟩, by simpa [Loc.unzip, Loc.siblings] using h1, h5, by simpa using h4, h6, by simpa [Loc.siblings] using h3⟩

/-- Every place of the larger tree is one of the smaller, unless it is a call that is left out. -/
theorem Without.place' {l' : Loc} {ts : List Tree} (h : Without P ts l'.unzip) (hk : ∀ c, callOf l'.info = some c → ¬P c) :
    ∃ l : Loc, l.unzip = ts ∧ SamePlace P l l' := by
  obtain ⟨u, ls, rs, ups'⟩ := l'
  obtain ⟨s, ups, h1, h2, h3⟩ := Around.of_plug' h (by simp [Loc.siblings])
  rcases h2.split' with ⟨a, t, b, rfl, h4, h5, h6⟩ | ⟨c, h4, h5, -⟩
  · exact ⟨⟨t, a.reverse, b, ups⟩, by simpa [Loc.unzip, Loc.siblings] using h1, h5, by simpa using h4, h6, by simpa [Loc.siblings] using h3⟩
  · exact absurd h5 (hk c h4)

/-! ## Going around -/

namespace SamePlace

variable {l l' : Loc}

theorem info (h : SamePlace P l l') : bareInfo l.info = l'.info := h.focus.1

theorem data (h : SamePlace P l l') : l.data = l'.data := by
  have := congrArg NodeInfo.data h.info; exact this

theorem flavor (h : SamePlace P l l') : l.flavor = l'.flavor := by
  have := congrArg NodeInfo.flavor h.info; exact this

theorem parent (h : SamePlace P l l') :
    (l.parent? = none ∧ l'.parent? = none) ∨ ∃ p p', l.parent? = some p ∧ l'.parent? = some p' ∧ SamePlace P p p' := by
  obtain ⟨t, ls, rs, ups⟩ := l
  obtain ⟨t', ls', rs', ups'⟩ := l'
  cases h.around with
  | nil => exact .inl ⟨rfl, rfl⟩
  | cons hl hf hr hu => exact .inr ⟨_, _, rfl, rfl, hf, hl, hr, hu⟩

theorem ancestors (h : SamePlace P l l') : Matched (SamePlace P) l.ancestors l'.ancestors := by
  fun_induction Loc.ancestors l generalizing l' with
  | case1 l hp =>
    rcases h.parent with ⟨-, h2⟩ | ⟨p, p', h1, -, -⟩
    · have e : l'.ancestors = [] := by rw [Loc.ancestors]; split <;> simp_all
      rw [e]
      exact .nil
    · simp_all
  | case2 l p hp ih =>
    rcases h.parent with ⟨h1, -⟩ | ⟨q, p', h1, h2, h3⟩
    · simp_all
    · rw [hp] at h1; cases h1
      have e : l'.ancestors = p' :: p'.ancestors := by
        rw [Loc.ancestors]
        split
        · simp_all
        · rename_i x hx
          rw [h2] at hx; cases hx; rfl
      rw [e]
      exact .cons h3 (ih h3)

end SamePlace

/-- Without calls among the nodes, only the exceptions differ. -/
theorem Without.quiet {ts us : List Tree} (h : Without P ts us) (hq : ∀ t ∈ us, callOf t.info = none) :
    Matched (WithoutIn P) ts us := by
  induction h with
  | nil => exact .nil
  | keep hi hc hcs _ _ ih => exact .cons ⟨hi, hc, hcs⟩ (ih fun t ht => hq t (by simp [ht]))
  | drop hj hp _ _ => exact absurd (hq _ (List.mem_cons_self)) (by simp [hj])

/-- The contents of a closed block are all there. -/
theorem WithoutIn.children {t u : Tree} (h : WithoutIn P t u) (hc : closed u.info = true) :
    Matched (WithoutIn P) t.children u.children := h.2.2.quiet (h.2.1 hc)

theorem Matched.length {α β : Type} {R : α → β → Prop} {as : List α} {bs : List β} (h : Matched R as bs) : as.length = bs.length := by
  induction h with
  | nil => rfl
  | cons _ _ ih => simp [ih]

theorem Matched.find {α β : Type} {R : α → β → Prop} {as : List α} {bs : List β} (h : Matched R as bs) {p : α → Bool} {q : β → Bool}
    (hp : ∀ a b, R a b → p a = q b) :
    (as.find? p = none ∧ bs.find? q = none) ∨ ∃ a b, as.find? p = some a ∧ bs.find? q = some b ∧ R a b := by
  induction h with
  | nil => exact .inl ⟨rfl, rfl⟩
  | @cons a b as bs h1 _ ih =>
    rw [List.find?_cons, List.find?_cons, hp _ _ h1]
    cases q b with
    | true => exact .inr ⟨a, b, rfl, rfl, h1⟩
    | false => exact ih

theorem Matched.any {α β : Type} {R : α → β → Prop} {as : List α} {bs : List β} (h : Matched R as bs) {p : α → Bool} {q : β → Bool}
    (hp : ∀ a b, R a b → p a = q b) : as.any p = bs.any q := by
  induction h with
  | nil => rfl
  | cons h1 _ ih => rw [List.any_cons, List.any_cons, hp _ _ h1, ih]

/-! ### Looking for require blocks -/

/-- The nodes that `has_require` looks at, from inside to outside. -/
def scope (t : Tree) (ls rs : List Tree) : List Frame → List Tree
  | [] => t :: ls
  | f :: fs => t :: ls ++ scope (.mk f.info (ls.reverse ++ t :: rs)) f.lefts f.rights fs

/-- `requireBlockLists` for a tree. -/
def blockLists (name : Str) (fl : DeclFlavor) (t : Tree) : Res Bool :=
  if isRequireBlock t.info then
    match t.children with
    | [] => .ub
    | ts => .ok (ts.any fun t => declLists name fl t.info)
  else .ok false

/-- The search through the nodes. -/
def searchScope (name : Str) (fl : DeclFlavor) : List Tree → Res Bool
  | [] => .ok false
  | t :: ts => do
    let found ← blockLists name fl t
    if found then pure true else searchScope name fl ts

theorem hasRequire_scope (l : Loc) (name : Str) (fl : DeclFlavor) :
    hasRequire l name fl = searchScope name fl (scope l.focus l.lefts l.rights l.ups) := by
  fun_induction hasRequire l name fl with
  | case1 l ih1 ih2 =>
    obtain ⟨t, ls, rs, ups⟩ := l
    have e : scope t ls rs ups = t :: (ls ++ match ups with
        | [] => []
        | f :: fs => scope (.mk f.info (ls.reverse ++ t :: rs)) f.lefts f.rights fs) := by
      cases ups <;> simp [scope]
    rw [e, searchScope]
    have hb : requireBlockLists ⟨t, ls, rs, ups⟩ name fl = blockLists name fl t := rfl
    rw [hb]
    congr 1
    funext b
    cases b with
    | true => rfl
    | false =>
      simp only [Bool.false_eq_true, if_false]
      cases ls with
      | cons p ls =>
        refine (ih1 ⟨p, ls, t :: rs, ups⟩ rfl).trans ?_
        congr 1
        cases ups <;> simp [scope]
      | nil =>
        cases ups with
        | nil => rfl
        | cons f fs => exact ih2 _ rfl

theorem Around.scope {t t' : Tree} {ls ls' rs rs' : List Tree} {ups ups' : List Frame} (ht : WithoutIn P t t')
    (hl : Without P ls.reverse ls'.reverse)
    (h : Around P (ls.reverse ++ t :: rs) (ls'.reverse ++ t' :: rs') ups ups') :
    Without P (scope t ls rs ups) (scope t' ls' rs' ups') := by
  generalize hs : ls.reverse ++ t :: rs = s at h
  generalize hs' : ls'.reverse ++ t' :: rs' = s' at h
  have hll : Without P ls ls' := by have := hl.reverse; simpa using this
  induction h generalizing t t' ls ls' rs rs' with
  | nil => exact .cons ht hll
  | cons hl' hf hr hu ih =>
    subst hs hs'
    exact (Without.cons ht hll).append (ih hf hl' rfl rfl (by have := hl'.reverse; simpa using this))

theorem blockLists_same {t u : Tree} (h : WithoutIn P t u) (name : Str) (fl : DeclFlavor) :
    blockLists name fl t = blockLists name fl u := by
  have hi : isRequireBlock t.info = isRequireBlock u.info := by rw [← h.1]; rfl
  unfold blockLists
  rw [hi]
  cases hr : isRequireBlock u.info with
  | false => rfl
  | true =>
    have hm := h.children (by simp [closed, hr])
    have ha : (t.children.any fun t => declLists name fl t.info) = u.children.any fun t => declLists name fl t.info :=
      hm.any fun a b hab => by rw [← hab.1]; rfl
    simp only [if_true]
    generalize t.children = ts at hm ha ⊢
    generalize u.children = us at hm ha ⊢
    cases hm with
    | nil => rfl
    | cons _ _ => exact congrArg Res.ok ha

theorem searchScope_same {ts us : List Tree} (h : Without P ts us) (name : Str) (fl : DeclFlavor) :
    searchScope name fl ts = searchScope name fl us := by
  induction h with
  | nil => rfl
  | @keep i j cs ds ts us hi hc hcs hts _ ih =>
    rw [searchScope, searchScope, blockLists_same (t := .mk i cs) (u := .mk j ds) ⟨hi, hc, hcs⟩, ih]
  | @drop j c ts us hj hp _ ih =>
    have : isRequireBlock j = false := by
      unfold callOf at hj
      split at hj
      · rename_i hd; simp [isRequireBlock, NodeInfo.flavor, hd, NodeData.flavor]
      · cases hj
    rw [searchScope, ih]
    simp [blockLists, this]

theorem SamePlace.hasRequire {l l' : Loc} (h : SamePlace P l l') (name : Str) (fl : DeclFlavor) :
    hasRequire l name fl = hasRequire l' name fl := by
  rw [hasRequire_scope, hasRequire_scope]
  exact searchScope_same (Around.scope h.focus h.lefts h.around) name fl

/-! ### Require blocks before a node -/

mutual
/-- All nodes of a tree, each with what is below it. -/
def subtrees : Tree → List Tree
  | .mk i cs => .mk i cs :: subtreesAll cs
/-- The same for a list of trees. -/
def subtreesAll : List Tree → List Tree
  | [] => []
  | t :: ts => subtrees t ++ subtreesAll ts
end

mutual
theorem locs_focus : ∀ (t : Tree) (ls rs : List Tree) (ups : List Frame), (t.locs ls rs ups).map Loc.focus = subtrees t
  | .mk i cs, ls, rs, ups => by simp [Tree.locs, subtrees, locsList_focus cs]
theorem locsList_focus : ∀ (ts ls : List Tree) (ups : List Frame), (Tree.locsList ls ts ups).map Loc.focus = subtreesAll ts
  | [], _, _ => by simp [Tree.locsList, subtreesAll]
  | t :: ts, ls, ups => by simp [Tree.locsList, subtreesAll, locs_focus t, locsList_focus ts]
end

/-- The first of the siblings of a node. -/
def firstSibling (l : Loc) : Loc :=
  match l.lefts.reverse with
  | [] => l
  | t :: ts => ⟨t, [], ts ++ l.focus :: l.rights, l.ups⟩

theorem firstSibling_child {l p : Loc} (h : l.parent? = some p) : p.firstChild? = some (firstSibling l) := by
  obtain ⟨t, ls, rs, ups⟩ := l
  cases ups with
  | nil => cases h
  | cons f fs =>
    cases h
    unfold firstSibling Loc.firstChild?
    simp only [Tree.children]
    cases hl : ls.reverse with
    | nil => simp_all
    | cons a as => simp

theorem locsList_app (ls xs ys : List Tree) (ups : List Frame) :
    ∃ zs, Tree.locsList ls (xs ++ ys) ups = zs ++ Tree.locsList (xs.reverse ++ ls) ys ups ∧ zs.map Loc.focus = subtreesAll xs := by
  induction xs generalizing ls with
  | nil => exact ⟨[], by simp, rfl⟩
  | cons x xs ih =>
    obtain ⟨zs, h, h'⟩ := ih (x :: ls)
    exact ⟨x.locs ls (xs ++ ys) ups ++ zs, by simp [Tree.locsList, h], by simp [subtreesAll, h', locs_focus]⟩

theorem seq_siblings (l : Loc) : l.seq = Tree.locsList l.lefts (l.focus :: l.rights) l.ups ++
    (match l.ups with
      | [] => []
      | f :: fs => Loc.after (.mk f.info l.siblings) f.lefts f.rights fs) := by
  obtain ⟨t, ls, rs, ups⟩ := l
  cases ups <;> simp [Loc.seq, Loc.after, Tree.locsList, Loc.siblings]

theorem firstSibling_walk (l : Loc) : ∃ pre, (firstSibling l).walk = pre ++ l.walk ∧ pre.map Loc.focus = subtreesAll l.lefts.reverse := by
  rw [Loc.walk_eq_seq, Loc.walk_eq_seq]
  obtain ⟨t, ls, rs, ups⟩ := l
  obtain ⟨zs, h, h'⟩ := locsList_app [] ls.reverse (t :: rs) ups
  refine ⟨zs, ?_, h'⟩
  have e : Tree.locsList (firstSibling ⟨t, ls, rs, ups⟩).lefts
      ((firstSibling ⟨t, ls, rs, ups⟩).focus :: (firstSibling ⟨t, ls, rs, ups⟩).rights) (firstSibling ⟨t, ls, rs, ups⟩).ups =
      Tree.locsList [] (ls.reverse ++ t :: rs) ups ∧ (firstSibling ⟨t, ls, rs, ups⟩).ups = ups ∧
      (firstSibling ⟨t, ls, rs, ups⟩).siblings = (⟨t, ls, rs, ups⟩ : Loc).siblings := by
    unfold firstSibling
    simp only
    cases hl : ls.reverse with
    | nil =>
      have : ls = [] := by simpa using hl
      subst this
      simp
    | cons a as => simp [Loc.siblings, hl]
  rw [seq_siblings, seq_siblings, e.1, e.2.1, e.2.2, h]
  simp

/-- The nodes before a node and inside the innermost definition around it. -/
def beforeNode (t : Tree) (ls rs : List Tree) : List Frame → List Tree
  | [] => subtreesAll ls.reverse
  | f :: fs =>
    (if isDefinition f.info then []
      else beforeNode (.mk f.info (ls.reverse ++ t :: rs)) f.lefts f.rights fs ++ [.mk f.info (ls.reverse ++ t :: rs)]) ++
      subtreesAll ls.reverse

theorem definition_walk {l d : Loc} (h : l.ancestors.find? (fun p => isDefinition p.info) = some d) :
    ∃ c pre, d.firstChild? = some c ∧ c.walk = pre ++ l.walk ∧ pre.map Loc.focus = beforeNode l.focus l.lefts l.rights l.ups := by
  fun_induction Loc.ancestors l with
  | case1 l hp => simp at h
  | case2 l p hp ih =>
    obtain ⟨zs, hz, hz'⟩ := firstSibling_walk l
    have hb : beforeNode l.focus l.lefts l.rights l.ups =
        (if isDefinition p.info then [] else beforeNode p.focus p.lefts p.rights p.ups ++ [p.focus]) ++
          subtreesAll l.lefts.reverse := by
      obtain ⟨t, ls, rs, ups⟩ := l
      cases ups with
      | nil => cases hp
      | cons f fs => cases hp; rfl
    rw [List.find?_cons] at h
    cases hd : isDefinition p.info with
    | true =>
      rw [hd] at h
      cases h
      exact ⟨_, zs, firstSibling_child hp, hz, by rw [hb, hd, hz']; simp⟩
    | false =>
      rw [hd] at h
      obtain ⟨c, pre, h1, h2, h3⟩ := ih h
      refine ⟨c, pre ++ p :: zs, h1, ?_, by rw [hb, hd]; simp [h3, hz']⟩
      rw [h2, C09_walk_is_dfs_next p]
      have : p.dfsNext = some (firstSibling l) := by
        unfold Loc.dfsNext
        rw [firstSibling_child hp]
      rw [this]
      simp [hz]

/-- What require blocks among the nodes list. -/
def requiredIn (ts : List Tree) : List Str := (ts.filter fun t => isRequireBlock t.info).flatMap getNamesRequired

theorem required_eq {l d : Loc} (h : l.ancestors.find? (fun p => isDefinition p.info) = some d) :
    namesRequiredBefore l d.firstChild? = requiredIn (beforeNode l.focus l.lefts l.rights l.ups) := by
  obtain ⟨c, pre, h1, h2, h3⟩ := definition_walk h
  rw [h1]
  have ht : c.walk.takeWhile (fun x => x.path ≠ l.path) = pre := by
    have hpw := c.walk_pairwise
    rw [h2] at hpw ⊢
    have h4 : ∀ a ∈ pre, a.path ≠ l.path := by
      intro a ha e
      have := (List.pairwise_append.1 hpw).2.2 a ha l (by rw [C09_walk_is_dfs_next]; exact List.mem_cons_self)
      rw [Loc.addr, Loc.addr, e] at this
      exact List.lt_irrefl _ this
    rw [List.takeWhile_append_of_pos (by simpa using h4), C09_walk_is_dfs_next]
    simp
  simp only [namesRequiredBefore]
  rw [ht, requiredIn, ← h3, List.filter_map, List.flatMap_map]
  rfl

theorem requiredIn_append (a b : List Tree) : requiredIn (a ++ b) = requiredIn a ++ requiredIn b := by
  simp [requiredIn]

theorem requiredIn_one {t u : Tree} (h : WithoutIn P t u) : requiredIn [t] = requiredIn [u] := by
  have hi : isRequireBlock t.info = isRequireBlock u.info := by rw [← h.1]; rfl
  cases hr : isRequireBlock u.info with
  | false => simp [requiredIn, hi, hr]
  | true =>
    have hm := h.children (by simp [closed, hr])
    rw [hr] at hi
    simp only [requiredIn, List.filter_cons, hi, hr, if_true, List.filter_nil, List.flatMap_cons, List.flatMap_nil,
      List.append_nil, getNamesRequired]
    generalize t.children = ts at hm ⊢
    generalize u.children = us at hm ⊢
    induction hm with
    | nil => rfl
    | cons h1 _ ih => rw [List.flatMap_cons, List.flatMap_cons, ih, ← h1.1]; rfl

theorem requiredIn_subtrees {ts us : List Tree} (h : Without P ts us) :
    requiredIn (subtreesAll ts) = requiredIn (subtreesAll us) := by
  induction h with
  | nil => rfl
  | @keep i j cs ds ts us hi hc hcs hts ih1 ih2 =>
    have h1 := requiredIn_one (t := .mk i cs) (u := .mk j ds) (P := P) ⟨hi, hc, hcs⟩
    rw [subtreesAll, subtreesAll, subtrees, subtrees, requiredIn_append, requiredIn_append, ih2,
      ← List.singleton_append, requiredIn_append, ih1, h1, ← List.singleton_append (l := subtreesAll ds), requiredIn_append]
  | @drop j c ts us hj hp _ ih =>
    have : isRequireBlock j = false := by
      unfold callOf at hj
      split at hj
      · rename_i hd; simp [isRequireBlock, NodeInfo.flavor, hd, NodeData.flavor]
      · cases hj
    rw [ih, subtreesAll, requiredIn_append]
    simp [subtrees, subtreesAll, requiredIn, this]

theorem Around.before {t t' : Tree} {ls ls' rs rs' : List Tree} {ups ups' : List Frame}
    (hl : Without P ls.reverse ls'.reverse)
    (h : Around P (ls.reverse ++ t :: rs) (ls'.reverse ++ t' :: rs') ups ups') :
    requiredIn (beforeNode t ls rs ups) = requiredIn (beforeNode t' ls' rs' ups') := by
  generalize hs : ls.reverse ++ t :: rs = s at h
  generalize hs' : ls'.reverse ++ t' :: rs' = s' at h
  induction h generalizing t t' ls ls' rs rs' with
  | nil => exact requiredIn_subtrees hl
  | @cons s s' f f' fs fs' hl' hf hr hu ih =>
    subst hs hs'
    have hd : isDefinition f.info = isDefinition f'.info := by
      have := hf.1
      simp only [Tree.info_mk] at this
      rw [← this]; rfl
    rw [beforeNode, beforeNode, requiredIn_append, requiredIn_append, requiredIn_subtrees hl, hd]
    congr 1
    split
    · rfl
    · rw [requiredIn_append, requiredIn_append, ih hl' rfl rfl, requiredIn_one hf]

end Spec

end Selint
