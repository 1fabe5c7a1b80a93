import Verif.Lemmas.ParseNodes
import Verif.Lemmas.ParseSafe
/-! # Which nodes of a derivation are in the tree -/

namespace Selint

open Spec

/-! ## The nodes in document order, without the calls that fail -/

namespace Spec

/-- A node without its exceptions. -/
def bareInfo (i : NodeInfo) : NodeInfo := { i with exceptions := none }

/-- The call of a node. -/
def callOf (i : NodeInfo) : Option IfCallData :=
  match i.data with
  | .ifCall c => some c
  | _ => none

/-- Drop the calls whose answer is no; what is left of the answers comes second. -/
def sift : List NodeInfo → List Bool → List NodeInfo × List Bool
  | [], as => ([], as)
  | i :: is, as =>
    if (callOf i).isSome then
      match as with
      | [] => (i :: (sift is []).1, (sift is []).2)
      | true :: as => (i :: (sift is as).1, (sift is as).2)
      | false :: as => sift is as
    else (i :: (sift is as).1, (sift is as).2)

theorem sift_append (a b : List NodeInfo) (as : List Bool) :
    sift (a ++ b) as = ((sift a as).1 ++ (sift b (sift a as).2).1, (sift b (sift a as).2).2) := by
  induction a generalizing as with
  | nil => rfl
  | cons i a ih =>
    simp only [List.cons_append, sift]
    split
    · split <;> simp only [ih, List.cons_append]
    · simp only [ih, List.cons_append]

/-- `f` adds the nodes of `ts`, without the calls that fail. -/
def Sifts (f : Build → Build) (ts : List Tree) : Prop :=
  ∀ b, (Tree.preorderList (f b).nodes.reverse).map bareInfo =
      (Tree.preorderList b.nodes.reverse).map bareInfo ++ (sift (Tree.preorderList ts) b.answers).1 ∧
    (f b).answers = (sift (Tree.preorderList ts) b.answers).2

theorem preorderList_app (a b : List Tree) :
    Tree.preorderList (a ++ b) = Tree.preorderList a ++ Tree.preorderList b := by
  induction a with
  | nil => rfl
  | cons t a ih => simp only [List.cons_append, Tree.preorderList, ih, List.append_assoc]

theorem preorderList_map_leaf {α : Type} (f : α → NodeInfo) (l : List α) :
    Tree.preorderList (l.map fun a => .mk (f a) []) = l.map f := by
  induction l with
  | nil => rfl
  | cons a l ih => simp [Tree.preorderList, Tree.preorder, ih]

theorem sift_quiet {L : List NodeInfo} (h : ∀ i ∈ L, callOf i = none) (as : List Bool) : sift L as = (L, as) := by
  induction L generalizing as with
  | nil => rfl
  | cons i L ih =>
    simp only [sift, h i List.mem_cons_self, ih fun j hj => h j (List.mem_cons_of_mem _ hj), Option.isSome_none,
      Bool.false_eq_true, if_false]

namespace Sifts

theorem id : Sifts (fun b => b) [] := fun b => by simp [Tree.preorderList, sift]

theorem comp {f g : Build → Build} {m n : List Tree} (hf : Sifts f m) (hg : Sifts g n) :
    Sifts (fun b => g (f b)) (m ++ n) := by
  intro b
  obtain ⟨h1, h2⟩ := hf b
  obtain ⟨h3, h4⟩ := hg (f b)
  rw [h2] at h3 h4
  rw [preorderList_app, sift_append]
  exact ⟨by rw [h3, h1, List.append_assoc], h4⟩

theorem add {t : Tree} (ht : ∀ i ∈ t.preorder, callOf i = none ∧ i.exceptions = none) : Sifts (fun b => b.add t) [t] := by
  intro b
  have e : Tree.preorderList [t] = t.preorder := by simp [Tree.preorderList]
  rw [e, sift_quiet fun i hi => (ht i hi).1]
  refine ⟨?_, rfl⟩
  simp only [Build.add, List.reverse_cons, preorderList_app, e, List.map_append, List.append_cancel_left_eq]
  refine (List.map_congr_left (g := _root_.id) fun i hi => ?_).trans (List.map_id _)
  have := (ht i hi).2
  obtain ⟨d, x, l⟩ := i
  cases this
  rfl

theorem call {i : NodeInfo} (hi : (callOf i).isSome = true) (he : i.exceptions = none) :
    Sifts (fun b => b.call (.mk i [])) [.mk i []] := by
  intro b
  have e : Tree.preorderList [Tree.mk i []] = [i] := by simp [Tree.preorderList, Tree.preorder]
  have hb : bareInfo i = i := by
    obtain ⟨d, x, l⟩ := i; cases he; rfl
  rw [e]
  simp only [Build.call, sift, hi, if_true]
  split
  · rename_i h
    simp [h, Build.add, preorderList_app, Tree.preorderList, Tree.preorder, hb]
  · rename_i as h
    simp [h, preorderList_app, Tree.preorderList, Tree.preorder, hb]
  · rename_i as h
    simp [h]

theorem command {f : Build → Build} {n : List Tree} {c : Str} (hf : Sifts f n) : Sifts (fun b => (f b).command c) n := by
  intro b
  obtain ⟨h1, h2⟩ := hf b
  show (Tree.preorderList ((f b).command c).nodes.reverse).map bareInfo = _ ∧ ((f b).command c).answers = _
  unfold Build.command
  split
  · exact ⟨h1, h2⟩
  · rename_i t ts e
    refine ⟨?_, h2⟩
    rw [← h1, e]
    obtain ⟨i, cs⟩ := t
    simp [preorderList_app, Tree.preorderList, Tree.preorder, bareInfo, Tree.info, Tree.children]

theorem block {f : Build → Build} {n : List Tree} {data : NodeData} {line : Nat} {cmd : Option Str}
    (hd : ∀ c, data ≠ .ifCall c) (hf : Sifts f n) : Sifts (Build.block data line cmd f) [blockNode data line n] := by
  intro b
  obtain ⟨h1, h2⟩ := hf ⟨[startMarker line], b.answers⟩
  have hc : ∀ (d : NodeData) e, (∀ c, d ≠ .ifCall c) → callOf ⟨d, e, line⟩ = none := by
    intro d e hd
    unfold callOf
    cases d <;> first | rfl | exact absurd rfl (hd _)
  have e : Tree.preorderList [blockNode data line n] =
      [⟨data, none, line⟩, ⟨.plain .startBlock none, none, line⟩] ++ Tree.preorderList n := by
    simp [blockNode, startMarker, leaf, Tree.preorderList, Tree.preorder]
  rw [e, sift_append, sift_quiet (L := [⟨data, none, line⟩, ⟨.plain .startBlock none, none, line⟩])]
  · refine ⟨?_, h2⟩
    simp only [Build.block, List.reverse_cons, preorderList_app, List.map_append, Tree.preorderList, Tree.preorder,
      List.append_nil, List.map_cons, h1]
    simp [startMarker, leaf, Tree.preorderList, Tree.preorder, bareInfo]
  · intro i hi
    simp only [List.mem_cons, List.not_mem_nil, or_false] at hi
    rcases hi with rfl | rfl
    · exact hc _ _ hd
    · rfl

theorem decls (fl : DeclFlavor) (line : Nat) (ns : List Str) :
    Sifts (fun b => ns.foldl (fun b n => b.add (leaf (.decl ⟨fl, n, []⟩) line)) b)
      (ns.map fun n => leaf (.decl ⟨fl, n, []⟩) line) := by
  induction ns with
  | nil => exact id
  | cons n ns ih => exact (add (by simp [leaf, Tree.preorder, Tree.preorderList, callOf])).comp ih

end Sifts

mutual
theorem sifts_reqLines : ∀ d : ReqLines, Sifts (buildReqLines d) (reqLinesNodes d)
  | .one l => sifts_reqLine l
  | .more ls l => (sifts_reqLines ls).comp (sifts_reqLine l)
theorem sifts_reqLine : ∀ d : ReqLine, Sifts (buildReqLine d) (reqLineNodes d)
  | .bare s => sifts_reqStmt s
  | .withCommand s _ => (sifts_reqStmt s).command
theorem sifts_reqStmt : ∀ d : ReqStmt, Sifts (buildReqStmt d) (reqStmtNodes d)
  | .decls line fl _ _ names => Sifts.decls fl line names.value
  | .cls line n l => Sifts.add (by simp [leaf, Tree.preorder, Tree.preorderList, callOf])
  | .ifdef line _ _ _ body => Sifts.block (by simp) (sifts_reqLines body)
  | .comment => Sifts.id
end

theorem sifts_simple (line : Nat) (s : Simple) (hs : isCall s = false) :
    ∀ i ∈ (simpleNode line s).preorder, callOf i = none ∧ i.exceptions = none := by
  intro i hi
  have e : (simpleNode line s).preorder = ⟨simpleData s, none, line⟩ ::
      (simpleAliases s).map fun a => ⟨.plain .alias (some a), none, line⟩ := by
    rw [← preorderList_map_leaf]; rfl
  rw [e] at hi
  rcases List.mem_cons.1 hi with rfl | hi
  · refine ⟨?_, rfl⟩
    cases s <;> first | rfl | simp [isCall] at hs
  · obtain ⟨a, -, rfl⟩ := List.mem_map.1 hi
    exact ⟨rfl, rfl⟩

mutual
theorem sifts_lines : ∀ d : Lines, Sifts (buildLines d) (linesNodes d)
  | .one l => sifts_line l
  | .more ls l => (sifts_lines ls).comp (sifts_line l)
theorem sifts_line : ∀ d : Line, Sifts (buildLine d) (lineNodes d)
  | .bare s => sifts_stmt s
  | .withCommand s _ => (sifts_stmt s).command
theorem sifts_stmt : ∀ d : Stmt, Sifts (buildStmt d) (stmtNodes d)
  | .silent _ => Sifts.id
  | .simple line s => by
    intro b
    simp only [buildStmt, stmtNodes]
    cases hs : isCall s with
    | true =>
      simp only [if_true]
      cases s <;> simp [isCall] at hs
      rename_i n a
      cases a <;> exact Sifts.call rfl rfl b
    | false =>
      simp only [Bool.false_eq_true, if_false]
      exact Sifts.add (sifts_simple line s hs) b
  | .optional line cmd body => Sifts.block (by simp) (sifts_lines body)
  | .optionalEmpty line cmd => Sifts.block (by simp) Sifts.id
  | .optionalElse line cmd body elseLine els =>
    (Sifts.block (by simp) (sifts_lines body)).comp (Sifts.block (by simp) (sifts_lines els))
  | .genRequire line cmd cmd' body => Sifts.block (by simp) (sifts_reqLines body)
  | .genRequireUnquoted line cmd body => Sifts.block (by simp) (sifts_reqLines body)
  | .require line cmd body => Sifts.block (by simp) (sifts_reqLines body)
  | .ifdef line _ _ args => Sifts.block (by simp) (sifts_args args)
  | .ifelse line args => Sifts.block (by simp) (sifts_args args)
  | .userdebugOrEng body => sifts_lines body
  | .tunable line _ _ args => Sifts.block (by simp) (sifts_args args)
  | .boolean line cmd _ body => Sifts.block (by simp) (sifts_lines body)
  | .booleanElse line cmd _ body els => Sifts.block (by simp) ((sifts_lines body).comp (sifts_lines els))
  | .define line _ _ _ => Sifts.block (by simp) Sifts.id
theorem sifts_args : ∀ d : M4Args, Sifts (buildArgs d) (argsNodes d)
  | .one line a => Sifts.block (by simp) (sifts_arg a)
  | .more as line a => (sifts_args as).comp (Sifts.block (by simp) (sifts_arg a))
theorem sifts_arg : ∀ d : M4Argument, Sifts (buildArg d) (argNodes d)
  | .empty => Sifts.id
  | .emptyQuoted => Sifts.id
  | .quoted body => sifts_lines body
  | .word _ => Sifts.id
end

theorem sifts_ifDef (d : IfDef) : Sifts (buildIfDef d) [ifDefNode d] := by
  unfold buildIfDef ifDefNode
  cases d.body with
  | none => exact Sifts.block (by simp) Sifts.id
  | some b => exact Sifts.block (by simp) (sifts_lines b)

theorem sifts_ifLines (ls : List IfLine) : Sifts (fun b => ls.foldl buildIfLine b) (ls.map ifLineNode) := by
  induction ls with
  | nil => exact Sifts.id
  | cons l ls ih =>
    have h : Sifts (fun b => buildIfLine b l) [ifLineNode l] := by
      cases l with
      | defn d => exact sifts_ifDef d
      | comment n => exact Sifts.add (by simp [leaf, Tree.preorder, Tree.preorderList, callOf])
    exact h.comp ih

theorem sifts_comments (cs : List Nat) :
    Sifts (fun b => cs.foldl (fun b c => b.add (leaf (.plain .comment none) c)) b)
      (cs.map (leaf (.plain .comment none))) := by
  induction cs with
  | nil => exact Sifts.id
  | cons c cs ih => exact (Sifts.add (by simp [leaf, Tree.preorder, Tree.preorderList, callOf])).comp ih

/-- The nodes of a built file, in document order: those of the derivation without the calls
that fail. -/
theorem buildFile_sift (f : SourceFile) (expected : PlainFlavor) (answers : List Bool) :
    (Tree.preorderList (buildFile f expected answers).nodes.reverse).map bareInfo =
        (sift (Tree.preorderList (fileNodes expected f)) answers).1 ∧
      (buildFile f expected answers).answers = (sift (Tree.preorderList (fileNodes expected f)) answers).2 := by
  have root : ∀ {g : Build → Build} {ns : List Tree}, Sifts g ns →
      (Tree.preorderList (g ⟨[leaf (.plain expected none) 0], answers⟩).nodes.reverse).map bareInfo =
        (sift (Tree.preorderList (leaf (.plain expected none) 0 :: ns)) answers).1 ∧
      (g ⟨[leaf (.plain expected none) 0], answers⟩).answers =
        (sift (Tree.preorderList (leaf (.plain expected none) 0 :: ns)) answers).2 := by
    intro g ns hg
    obtain ⟨h1, h2⟩ := hg ⟨[leaf (.plain expected none) 0], answers⟩
    have e : Tree.preorderList (leaf (.plain expected none) 0 :: ns) =
        [⟨.plain expected none, none, 0⟩] ++ Tree.preorderList ns := by
      simp [leaf, Tree.preorderList, Tree.preorder]
    rw [e, sift_append, sift_quiet (L := [⟨.plain expected none, none, 0⟩]) (by simp [callOf])]
    refine ⟨?_, h2⟩
    rw [h1]
    simp [leaf, Tree.preorderList, Tree.preorder, bareInfo]
  cases f with
  | empty =>
    simp [buildFile, fileNodes, leaf, Tree.preorderList, Tree.preorder, sift, callOf, bareInfo]
  | te cs hd b =>
    have := root (((sifts_comments cs).comp (Sifts.add (t := headerNode hd)
      (by simp [headerNode, leaf, Tree.preorder, Tree.preorderList, callOf]))).comp (sifts_lines b))
    simpa [fileNodes, buildFile] using this
  | iface cs d ls =>
    have := root (((sifts_comments cs).comp (sifts_ifDef d)).comp (sifts_ifLines ls))
    simpa [fileNodes, buildFile] using this
  | spt cs _ _ => exact root (sifts_comments cs)
  | av cs _ _ => exact root (sifts_comments cs)
  | comments c cs => exact root (sifts_comments (c :: cs))

theorem sift_subset {L : List NodeInfo} {as : List Bool} {i : NodeInfo} (h : i ∈ (sift L as).1) : i ∈ L := by
  induction L generalizing as with
  | nil => simp [sift] at h
  | cons j L ih =>
    simp only [sift] at h
    split at h
    · split at h
      · rcases List.mem_cons.1 h with rfl | h
        · exact List.mem_cons_self
        · exact List.mem_cons_of_mem _ (ih h)
      · rcases List.mem_cons.1 h with rfl | h
        · exact List.mem_cons_self
        · exact List.mem_cons_of_mem _ (ih h)
      · exact List.mem_cons_of_mem _ (ih h)
    · rcases List.mem_cons.1 h with rfl | h
      · exact List.mem_cons_self
      · exact List.mem_cons_of_mem _ (ih h)

/-- Two lists of the same length with related elements. -/
inductive Matched {α β : Type} (R : α → β → Prop) : List α → List β → Prop
  | nil : Matched R [] []
  | cons {a : α} {b : β} {as : List α} {bs : List β} (h : R a b) (t : Matched R as bs) : Matched R (a :: as) (b :: bs)

theorem Matched.imp {α β : Type} {R S : α → β → Prop} (h : ∀ a b, R a b → S a b) {as : List α} {bs : List β}
    (hm : Matched R as bs) : Matched S as bs := by
  induction hm with
  | nil => exact .nil
  | cons hx _ ih => exact .cons (h _ _ hx) ih

theorem Matched.append {α β : Type} {R : α → β → Prop} {as as' : List α} {bs bs' : List β} (h : Matched R as bs)
    (h' : Matched R as' bs') : Matched R (as ++ as') (bs ++ bs') := by
  induction h with
  | nil => exact h'
  | cons hx _ ih => exact .cons hx ih

theorem sift_keeps {R : SelintError → IfCallData → Prop} {P : IfCallData → Prop}
    (hR : ∀ e c, R e c → P c → e = .success) {L : List NodeInfo} {es : List SelintError}
    (h : Matched R es (L.filterMap callOf)) {i : NodeInfo} (hi : i ∈ L) (hp : ∀ c, callOf i = some c → P c)
    (more : List Bool) : i ∈ (sift L (es.map (fun e => decide (e = .success)) ++ more)).1 := by
  induction L generalizing es with
  | nil => cases hi
  | cons j L ih =>
    simp only [sift]
    cases hj : callOf j with
    | none =>
      simp only [List.filterMap_cons, hj] at h
      simp only [Option.isSome_none, Bool.false_eq_true, if_false]
      rcases List.mem_cons.1 hi with rfl | hi
      · exact List.mem_cons_self
      · exact List.mem_cons_of_mem _ (ih h hi)
    | some c =>
      simp only [List.filterMap_cons, hj] at h
      cases h with
      | cons h1 h2 =>
        rename_i e es
        simp only [Option.isSome_some, if_true, List.map_cons, List.cons_append]
        cases he : decide (e = .success) with
        | true =>
          rcases List.mem_cons.1 hi with rfl | hi
          · exact List.mem_cons_self
          · exact List.mem_cons_of_mem _ (ih h2 hi)
        | false =>
          rcases List.mem_cons.1 hi with rfl | hi
          · have := hR e c h1 (hp c hj)
            simp [this] at he
          · exact ih h2 hi

end Spec

/-! ## The answers to the calls -/

/-- The second tables have all that the first know about templates. -/
def TemplatesGrow (m m' : Maps) : Prop :=
  (∀ t, ∀ x ∈ m.templateDecls t, x ∈ m'.templateDecls t) ∧ ∀ t, ∀ x ∈ m.templateCalls t, x ∈ m'.templateCalls t

theorem TemplatesGrow.refl (m : Maps) : TemplatesGrow m m := ⟨fun _ _ h => h, fun _ _ h => h⟩

theorem TemplatesGrow.trans {a b c : Maps} (h : TemplatesGrow a b) (h' : TemplatesGrow b c) : TemplatesGrow a c :=
  ⟨fun t x hx => h'.1 t x (h.1 t x hx), fun t x hx => h'.2 t x (h.2 t x hx)⟩

theorem TemplatesGrow.of_eq {m m' : Maps} (h : m'.template = m.template) : TemplatesGrow m m' := by
  constructor <;> intro t x hx
  · rwa [templateDecls_congr h]
  · rwa [templateCalls_congr h]

/-- What a call was answered: it is one in a template, or its expansion with some templates
of the final tables gave this result. -/
def Answer (mod : Str) (M : Maps) (e : SelintError) (c : IfCallData) : Prop :=
  e = .success ∨ ∃ m m', expandTemplate c.name c.argStrs mod m = .done e m' ∧
    TemplatesGrow m M

/-- Running some actions made these calls; no template is forgotten. -/
structure Asks (cs : List IfCallData) (st st' : PState) : Prop where
  module : st'.module = st.module
  grows : TemplatesGrow st.maps st'.maps
  rets : ∃ es, st'.rets = st.rets ++ es ∧ Matched (Answer st.module st'.maps) es cs

namespace Asks

theorem quiet {st st' : PState} (hm : st'.module = st.module) (hr : st'.rets = st.rets)
    (hg : TemplatesGrow st.maps st'.maps) : Asks [] st st' :=
  ⟨hm, hg, [], by simp [hr], .nil⟩

theorem same {st st' : PState} (hm : st'.module = st.module) (hr : st'.rets = st.rets)
    (hg : st'.maps.template = st.maps.template) : Asks [] st st' :=
  quiet hm hr (TemplatesGrow.of_eq hg)

theorem trans {as bs : List IfCallData} {a b c : PState} (h : Asks as a b) (h' : Asks bs b c) :
    Asks (as ++ bs) a c := by
  obtain ⟨es, e1, e2⟩ := h.rets
  obtain ⟨fs, f1, f2⟩ := h'.rets
  refine ⟨h'.module.trans h.module, h.grows.trans h'.grows, es ++ fs, by rw [f1, e1, List.append_assoc], ?_⟩
  rw [h.module] at f2
  refine Matched.append (e2.imp fun e cl hx => ?_) f2
  rcases hx with rfl | ⟨m, m', hm, hg⟩
  · exact .inl rfl
  · exact .inr ⟨m, m', hm, hg.trans h'.grows⟩

theorem after {cs : List IfCallData} {a b c : PState} (h : Asks cs a b) (h' : Asks [] b c) : Asks cs a c := by
  have := h.trans h'; rwa [List.append_nil] at this

end Asks

theorem updTemplate_grows (m : Maps) (n : Str) (f : TemplateElem → TemplateElem)
    (hd : ∀ e, ∀ x ∈ e.declarations, x ∈ (f e).declarations) (hc : ∀ e, ∀ x ∈ e.calls, x ∈ (f e).calls) :
    TemplatesGrow m (m.updTemplate n f) := by
  constructor <;> intro t x hx
  · unfold Maps.templateDecls at *
    rw [lookUp_updTemplate]
    by_cases hn : n = t
    · rw [if_pos hn]
      cases h : m.lookUpTemplate t with
      | none => rw [h] at hx; cases hx
      | some e => rw [h] at hx; exact hd _ _ hx
    · rw [if_neg hn]; exact hx
  · unfold Maps.templateCalls at *
    rw [lookUp_updTemplate]
    by_cases hn : n = t
    · rw [if_pos hn]
      cases h : m.lookUpTemplate t with
      | none => rw [h] at hx; cases hx
      | some e => rw [h] at hx; exact hc _ _ hx
    · rw [if_neg hn]; exact hx

theorem Asks.statement (st : PState) (data : NodeData) (line : Nat) : Asks [] st (st.statement data line) :=
  .same rfl rfl rfl

theorem Asks.grow (st : PState) (op : TreeOp) : Asks [] st (st.grow op) := .same rfl rfl rfl

theorem declareName_asks (st : PState) (fl : DeclFlavor) (n : Str) : Asks [] st (st.declareName fl n) := by
  unfold PState.declareName
  split
  · exact .same rfl rfl rfl
  · split
    · exact .quiet rfl rfl (updTemplate_grows _ _ _ (by simp +contextual) (by simp +contextual))
    · split
      · exact .same rfl rfl rfl
      · exact .same rfl rfl (Maps.insertDecl_other ..).2.2.2.2.2.2.2

theorem insertDeclaration_asks (st : PState) (fl : DeclFlavor) (n : Str) (as : List Str) (line : Nat) :
    Asks [] st (st.insertDeclaration fl n as line) :=
  (declareName_asks st fl n).after (.statement ..)

theorem insertAliases_asks (as : List Str) (fl : DeclFlavor) (line : Nat) :
    ∀ st : PState, Asks [] st (st.insertAliases as fl line) := by
  induction as with
  | nil => exact fun st => .same rfl rfl rfl
  | cons a as ih =>
    intro st
    refine Asks.after ?_ (ih _)
    unfold PState.insertAlias
    refine Asks.after (b := _) ?_ (.grow ..)
    split
    · exact .quiet rfl rfl (updTemplate_grows _ _ _ (by simp +contextual) (by simp +contextual))
    · exact .same rfl rfl (Maps.insertDecl_other ..).2.2.2.2.2.2.2

theorem Decl.exec_asks (d : Decl) (line : Nat) (st : PState) : Asks [] st (d.exec line st) := by
  cases d with
  | typeAlias n l => exact (insertDeclaration_asks ..).after (insertAliases_asks ..)
  | typeAliasAttrs n l a => exact (insertDeclaration_asks ..).after (insertAliases_asks ..)
  | _ => exact insertDeclaration_asks ..

theorem insertInterfaceCall_asks {st st' : PState} {c : IfCallData} {line : Nat}
    (h : st.insertInterfaceCall c line = .ok st') : Asks [c] st st' := by
  unfold PState.insertInterfaceCall at h
  cases he : st.expandCall c with
  | ub => rw [he] at h; cases h
  | fuel => rw [he] at h; cases h
  | done e m =>
    rw [he] at h
    dsimp only at h
    have hm : TemplatesGrow st.maps m ∧ Answer st.module m e c := by
      unfold PState.expandCall at he
      split at he
      · simp only [ExpRes.done.injEq] at he
        obtain ⟨rfl, rfl⟩ := he
        exact ⟨updTemplate_grows _ _ _ (by simp +contextual) (by simp +contextual), .inl rfl⟩
      · obtain ⟨out, rfl, -⟩ := add_insertAll st.maps _ rfl he
        have hT : (insertAll st.module out st.maps).template = st.maps.template := insertAll_template ..
        have hg : TemplatesGrow st.maps (insertAll st.module out st.maps) := .of_eq hT
        exact ⟨hg, .inr ⟨_, _, he, hg⟩⟩
    have key : Asks [c] st { st with maps := m, rets := st.rets ++ [e] } := ⟨rfl, hm.1, [e], rfl, .cons hm.2 .nil⟩
    split at h
    · cases h
      refine key.after (Asks.after (b := _) ?_ (.statement ..))
      split
      · split
        · refine .same rfl rfl ?_
          show (Maps.markFiletrans _ _).template = _
          unfold Maps.markFiletrans
          split <;> rfl
        · exact .same rfl rfl rfl
      · exact .same rfl rfl rfl
    · cases h; exact key

theorem insertAttribute_asks (st : PState) (d : AttrData) (line : Nat) : Asks [] st (st.insertAttribute d line) := by
  unfold PState.insertAttribute
  dsimp only
  split
  · split
    · refine .same rfl rfl ?_
      show (Maps.markTransform _ _).template = _
      unfold Maps.markTransform
      split <;> rfl
    · exact .statement ..
  · exact .statement ..

theorem insertTypeTransition_asks (st : PState) (d : TtData) (line : Nat) : Asks [] st (st.insertTypeTransition d line) := by
  unfold PState.insertTypeTransition
  refine Asks.after (b := _) ?_ (.statement ..)
  split
  · exact .same rfl rfl rfl
  · split
    · refine .same rfl rfl ?_
      show (Maps.markFiletrans _ _).template = _
      unfold Maps.markFiletrans
      split <;> rfl
    · exact .same rfl rfl rfl

/-- The calls of a node and those below it. -/
def Spec.callsOf (ts : List Tree) : List IfCallData := (Tree.preorderList ts).filterMap callOf

theorem callsOf_append (a b : List Tree) : callsOf (a ++ b) = callsOf a ++ callsOf b := by
  simp [callsOf, preorderList_app]

theorem callsOf_block (data : NodeData) (line : Nat) (n : List Tree) (hd : ∀ c, data ≠ .ifCall c) :
    callsOf [blockNode data line n] = callsOf n := by
  have hc : callOf ⟨data, none, line⟩ = none := by
    unfold callOf
    cases data <;> first | rfl | exact absurd rfl (hd _)
  simp [callsOf, blockNode, startMarker, leaf, Tree.preorderList, Tree.preorder, hc]
  rfl

theorem callsOf_quiet {line : Nat} {s : Simple} (hs : isCall s = false) : callsOf [simpleNode line s] = [] := by
  unfold callsOf
  rw [List.filterMap_eq_nil_iff]
  intro i hi
  simp only [Tree.preorderList, List.append_nil] at hi
  exact (sifts_simple line s hs i hi).1

theorem Simple.exec_asks {s : Simple} {line : Nat} {st st' : PState} (h : s.exec line st = .ok st') :
    Asks (callsOf [simpleNode line s]) st st' := by
  cases hs : isCall s with
  | true =>
    cases s <;> simp [isCall] at hs
    rename_i n a
    cases a <;> exact insertInterfaceCall_asks h
  | false =>
    rw [callsOf_quiet hs]
    cases s <;> simp only [Simple.exec] at h <;> (try simp [isCall] at hs)
    case decl d => cases h; exact d.exec_asks line st
    case typeAttribute => cases h; exact insertAttribute_asks ..
    case roleAttribute => cases h; exact insertAttribute_asks ..
    case typeAlias n l => cases h; exact (Asks.statement ..).after (insertAliases_asks ..)
    case rule fl s t' c p =>
      cases h
      unfold PState.insertAvRule
      refine Asks.after (b := _) ?_ (.statement ..)
      split
      · split
        · refine .same rfl rfl ?_
          show (Maps.markTransform _ _).template = _
          unfold Maps.markTransform
          split <;> rfl
        · exact .same rfl rfl rfl
      · exact .same rfl rfl rfl
    case roleTypes r l =>
      cases h
      unfold PState.insertRoleTypes
      refine Asks.after (b := _) ?_ (.statement ..)
      split
      · split
        · refine .same rfl rfl ?_
          show (Maps.markRole _ _).template = _
          unfold Maps.markRole
          split <;> rfl
        · exact .same rfl rfl rfl
      · exact .same rfl rfl rfl
    case typeTransition s t' c d n => cases h; exact insertTypeTransition_asks ..
    case typeMember s t' c d => cases h; exact insertTypeTransition_asks ..
    case typeChange s t' c d => cases h; exact insertTypeTransition_asks ..
    case rangeTransition s t' c r => cases h; exact insertTypeTransition_asks ..
    all_goals (cases h; exact .statement ..)

theorem Asks.parentCommand (st : PState) (cmd : Option Str) : Asks [] st (st.parentCommand cmd) := by
  cases cmd <;> exact .same rfl rfl rfl

theorem Asks.lateCommand (st : PState) (cmd : Option Str) : Asks [] st (st.lateCommand cmd) := by
  cases cmd <;> exact .same rfl rfl rfl

theorem Asks.before {cs : List IfCallData} {a b c : PState} (h : Asks [] a b) (h' : Asks cs b c) : Asks cs a c := h.trans h'

theorem declarations_asks (fl : DeclFlavor) (line : Nat) (ns : List Str) :
    ∀ st : PState, Asks [] st (ns.foldl (fun st n => st.insertDeclaration fl n [] line) st) := by
  induction ns with
  | nil => exact fun st => .same rfl rfl rfl
  | cons n ns ih => exact fun st => (insertDeclaration_asks ..).after (ih _)

theorem callsOf_decls (fl : DeclFlavor) (line : Nat) (ns : List Str) :
    callsOf (ns.map fun n => leaf (.decl ⟨fl, n, []⟩) line) = [] := by
  induction ns with
  | nil => rfl
  | cons n ns ih => exact ih

theorem callsOf_nil : callsOf [] = [] := rfl

mutual
theorem ReqLines.exec_asks : ∀ (d : ReqLines) (st : PState), Asks (callsOf (reqLinesNodes d)) st (d.exec st)
  | .one l, st => l.exec_asks st
  | .more ls l, st => by
    rw [reqLinesNodes, callsOf_append]
    exact (ls.exec_asks st).trans (l.exec_asks _)
theorem ReqLine.exec_asks : ∀ (d : ReqLine) (st : PState), Asks (callsOf (reqLineNodes d)) st (d.exec st)
  | .bare s, st => s.exec_asks st
  | .withCommand s c, st => (s.exec_asks st).after (.grow ..)
theorem ReqStmt.exec_asks : ∀ (d : ReqStmt) (st : PState), Asks (callsOf (reqStmtNodes d)) st (d.exec st)
  | .decls line fl _ _ names, st => by
    rw [reqStmtNodes, callsOf_decls]
    exact declarations_asks fl line names.value st
  | .cls line n l, st => insertDeclaration_asks ..
  | .ifdef line _ _ _ body, st => by
    rw [reqStmtNodes, callsOf_block _ _ _ (by simp)]
    exact ((Asks.grow ..).before (body.exec_asks _)).after (.grow ..)
  | .comment, st => .same rfl rfl rfl
end

theorem genRequire_asks {st : PState} {line : Nat} {cmd cmd' : Option Str} {u : Bool} (body : ReqLines) :
    Asks (callsOf [blockNode (.genReq u) line (reqLinesNodes body)]) st
      (((body.exec ((st.beginGenRequire line).parentCommand cmd)).endGenRequire u).lateCommand cmd') := by
  rw [callsOf_block _ _ _ (by simp)]
  refine Asks.after ?_ (.lateCommand ..)
  refine Asks.after ?_ (.grow ..)
  refine Asks.after ?_ (.grow ..)
  exact ((Asks.grow ..).before (.parentCommand ..)).before (body.exec_asks _)

mutual
theorem Lines.exec_asks : ∀ (d : Lines) (st st' : PState), d.exec st = .ok st' → Asks (callsOf (linesNodes d)) st st'
  | .one l, st, st', h => l.exec_asks st st' h
  | .more ls l, st, st', h => by
    rw [Lines.exec] at h
    obtain ⟨st₁, h₁, h⟩ := Res.bind_eq_ok h
    rw [linesNodes, callsOf_append]
    exact (ls.exec_asks _ _ h₁).trans (l.exec_asks _ _ h)
theorem Line.exec_asks : ∀ (d : Line) (st st' : PState), d.exec st = .ok st' → Asks (callsOf (lineNodes d)) st st'
  | .bare s, st, st', h => s.exec_asks st st' h
  | .withCommand s c, st, st', h => by
    rw [Line.exec] at h
    obtain ⟨st₁, h₁, h⟩ := Res.bind_eq_ok h
    cases h
    exact (s.exec_asks _ _ h₁).after (.grow ..)
theorem Stmt.exec_asks : ∀ (d : Stmt) (st st' : PState), d.exec st = .ok st' → Asks (callsOf (stmtNodes d)) st st'
  | .silent _, st, st', h => by rw [Stmt.exec] at h; cases h; exact .same rfl rfl rfl
  | .simple line s, st, st', h => Simple.exec_asks h
  | .optional line cmd body, st, st', h => by
    rw [Stmt.exec] at h
    obtain ⟨st₁, h₁, h⟩ := Res.bind_eq_ok h
    cases h
    rw [stmtNodes, callsOf_block _ _ _ (by simp)]
    exact (((Asks.grow ..).before (.parentCommand ..)).before (body.exec_asks _ _ h₁)).after (.grow ..)
  | .optionalEmpty line cmd, st, st', h => by
    rw [Stmt.exec] at h
    cases h
    rw [stmtNodes, callsOf_block _ _ _ (by simp)]
    exact ((Asks.grow ..).before (.parentCommand ..)).after (.grow ..)
  | .optionalElse line cmd body elseLine els, st, st', h => by
    rw [Stmt.exec] at h
    obtain ⟨st₁, h₁, h⟩ := Res.bind_eq_ok h
    obtain ⟨st₂, h₂, h⟩ := Res.bind_eq_ok h
    cases h
    rw [stmtNodes, ← List.singleton_append, callsOf_append, callsOf_block _ _ _ (by simp), callsOf_block _ _ _ (by simp)]
    exact ((((Asks.grow ..).before (.parentCommand ..)).before (body.exec_asks _ _ h₁)).after (.grow ..)).trans
      (((Asks.grow ..).before (els.exec_asks _ _ h₂)).after (.grow ..))
  | .genRequire line cmd cmd' body, st, st', h => by
    rw [Stmt.exec] at h; cases h
    exact genRequire_asks body
  | .genRequireUnquoted line cmd body, st, st', h => by
    rw [Stmt.exec] at h; cases h
    exact genRequire_asks (cmd' := none) body
  | .require line cmd body, st, st', h => by
    rw [Stmt.exec] at h; cases h
    rw [stmtNodes, callsOf_block _ _ _ (by simp)]
    exact (((Asks.grow ..).before (.parentCommand ..)).before (body.exec_asks _)).after (.grow ..)
  | .ifdef line _ _ args, st, st', h => by
    rw [Stmt.exec] at h
    obtain ⟨st₁, h₁, h⟩ := Res.bind_eq_ok h
    cases h
    rw [stmtNodes, callsOf_block _ _ _ (by simp)]
    exact ((Asks.grow ..).before (args.exec_asks _ _ h₁)).after (.grow ..)
  | .ifelse line args, st, st', h => by
    rw [Stmt.exec] at h
    obtain ⟨st₁, h₁, h⟩ := Res.bind_eq_ok h
    cases h
    rw [stmtNodes, callsOf_block _ _ _ (by simp)]
    exact ((Asks.grow ..).before (args.exec_asks _ _ h₁)).after (.grow ..)
  | .userdebugOrEng body, st, st', h => by
    rw [Stmt.exec] at h
    rw [stmtNodes]
    exact body.exec_asks _ _ h
  | .tunable line _ _ args, st, st', h => by
    rw [Stmt.exec] at h
    obtain ⟨st₁, h₁, h⟩ := Res.bind_eq_ok h
    cases h
    rw [stmtNodes, callsOf_block _ _ _ (by simp)]
    exact ((Asks.grow ..).before (args.exec_asks _ _ h₁)).after (.grow ..)
  | .boolean line cmd _ body, st, st', h => by
    rw [Stmt.exec] at h
    obtain ⟨st₁, h₁, h⟩ := Res.bind_eq_ok h
    cases h
    rw [stmtNodes, callsOf_block _ _ _ (by simp)]
    exact (((Asks.grow ..).before (.parentCommand ..)).before (body.exec_asks _ _ h₁)).after (.grow ..)
  | .booleanElse line cmd _ body els, st, st', h => by
    rw [Stmt.exec] at h
    obtain ⟨st₁, h₁, h⟩ := Res.bind_eq_ok h
    obtain ⟨st₂, h₂, h⟩ := Res.bind_eq_ok h
    cases h
    rw [stmtNodes, callsOf_block _ _ _ (by simp), callsOf_append]
    exact ((((Asks.grow ..).before (.parentCommand ..)).before (body.exec_asks _ _ h₁)).trans (els.exec_asks _ _ h₂)).after
      (.grow ..)
  | .define line _ _ _, st, st', h => by
    rw [Stmt.exec] at h
    cases h
    rw [stmtNodes, callsOf_block _ _ _ (by simp)]
    exact (Asks.grow ..).after (.grow ..)
theorem M4Args.exec_asks : ∀ (d : M4Args) (st st' : PState), d.exec st = .ok st' → Asks (callsOf (argsNodes d)) st st'
  | .one line a, st, st', h => by
    rw [M4Args.exec] at h
    obtain ⟨st₁, h₁, h⟩ := Res.bind_eq_ok h
    cases h
    rw [argsNodes, callsOf_block _ _ _ (by simp)]
    exact ((Asks.grow ..).before (a.exec_asks _ _ h₁)).after (.grow ..)
  | .more as line a, st, st', h => by
    rw [M4Args.exec] at h
    obtain ⟨st₁, h₁, h⟩ := Res.bind_eq_ok h
    obtain ⟨st₂, h₂, h⟩ := Res.bind_eq_ok h
    cases h
    rw [argsNodes, callsOf_append, callsOf_block _ _ _ (by simp)]
    exact (as.exec_asks _ _ h₁).trans (((Asks.grow ..).before (a.exec_asks _ _ h₂)).after (.grow ..))
theorem M4Argument.exec_asks : ∀ (d : M4Argument) (st st' : PState), d.exec st = .ok st' →
    Asks (callsOf (argNodes d)) st st'
  | .empty, st, st', h => by rw [M4Argument.exec] at h; cases h; exact .same rfl rfl rfl
  | .emptyQuoted, st, st', h => by rw [M4Argument.exec] at h; cases h; exact .same rfl rfl rfl
  | .quoted body, st, st', h => by
    rw [M4Argument.exec] at h
    rw [argNodes]
    exact body.exec_asks _ _ h
  | .word _, st, st', h => by rw [M4Argument.exec] at h; cases h; exact .same rfl rfl rfl
end

theorem IfDef.exec_asks {d : IfDef} {st st' : PState} (h : d.exec st = .ok st') : Asks (callsOf [ifDefNode d]) st st' := by
  unfold IfDef.exec at h
  obtain ⟨st₁, h₁, h⟩ := Res.bind_eq_ok h
  cases h
  rw [ifDefNode, callsOf_block _ _ _ (by simp)]
  refine Asks.after ?_ (.lateCommand ..)
  have hend : Asks [] st₁ st₁.endInterfaceDef := by
    unfold PState.endInterfaceDef
    split
    · exact .same rfl rfl rfl
    · split <;> exact .grow ..
  refine Asks.after ?_ hend
  have hbeg : Asks [] st (st.beginInterfaceDef d.isTemplate d.name d.line) := by
    unfold PState.beginInterfaceDef
    dsimp only
    refine Asks.after (b := _) ?_ (.grow ..)
    cases d.isTemplate with
    | true => exact .quiet rfl rfl (updTemplate_grows _ _ _ (by simp +contextual) (by simp +contextual))
    | false => exact .same rfl rfl rfl
  refine hbeg.before ?_
  cases hb : d.body with
  | none => rw [hb] at h₁; cases h₁; exact .same rfl rfl rfl
  | some b => rw [hb] at h₁; exact b.exec_asks _ _ h₁

theorem execIfLines_asks (ls : List IfLine) : ∀ st st' : PState, execIfLines ls st = .ok st' →
    Asks (callsOf (ls.map ifLineNode)) st st' := by
  induction ls with
  | nil => intro st st' h; cases h; exact .same rfl rfl rfl
  | cons l ls ih =>
    intro st st' h
    obtain ⟨st₁, h₁, h⟩ := Res.bind_eq_ok h
    rw [List.map_cons, ← List.singleton_append, callsOf_append]
    refine Asks.trans ?_ (ih _ _ h)
    cases l with
    | defn d => exact IfDef.exec_asks h₁
    | comment n => cases h₁; exact .statement ..

theorem execComments_asks (cs : List Nat) : ∀ st : PState, Asks [] st (execComments cs st) := by
  induction cs with
  | nil => exact fun st => .same rfl rfl rfl
  | cons c cs ih => exact fun st => (Asks.statement ..).before (ih _)

theorem callsOf_comments (cs : List Nat) : callsOf (cs.map (leaf (.plain .comment none))) = [] := by
  induction cs with
  | nil => rfl
  | cons c cs ih => exact ih

/-- The calls of an accepted te or interface file, and how they were answered. -/
theorem SourceFile.exec_asks {f : SourceFile} {expected : PlainFlavor} {mod : Str} {m : Maps} {st : PState}
    (he : expected = .teFile ∨ expected = .ifFile) (h : f.exec expected mod m = .ok (some st)) :
    Matched (Answer mod st.maps) st.rets (callsOf (fileNodes expected f)) := by
  have fin : ∀ {cs : List IfCallData}, Asks cs (PState.init expected mod m) st → Matched (Answer mod st.maps) st.rets cs := by
    intro cs hg
    obtain ⟨es, h1, h2⟩ := hg.rets
    have : st.rets = es := h1
    rw [this]
    exact h2
  have hroot : ∀ ts, callsOf (leaf (.plain expected none) 0 :: ts) = callsOf ts := fun ts => rfl
  unfold SourceFile.exec at h
  cases f with
  | empty => cases h; exact .nil
  | te cs hd b =>
    dsimp only at h
    split at h
    · cases h
    · obtain ⟨st₁, h₁, h⟩ := Res.bind_eq_ok h
      cases h
      rw [fileNodes, hroot, callsOf_append, callsOf_comments]
      exact fin (((execComments_asks ..).before (.statement ..)).before (b.exec_asks _ _ h₁))
  | iface cs d ls =>
    dsimp only at h
    split at h
    · cases h
    · obtain ⟨st₁, h₁, h⟩ := Res.bind_eq_ok h
      obtain ⟨st₂, h₂, h⟩ := Res.bind_eq_ok h
      cases h
      rw [fileNodes, hroot, callsOf_append, callsOf_comments, ← List.singleton_append, callsOf_append]
      exact fin ((execComments_asks ..).before ((IfDef.exec_asks h₁).trans (execIfLines_asks _ _ _ h₂)))
  | spt cs d ls =>
    rcases he with rfl | rfl <;> simp at h
  | av cs d ls =>
    dsimp only at h
    split at h
    · cases h
    · cases h
      rw [fileNodes, hroot, callsOf_comments]
      have := (execComments_asks cs (PState.init expected mod m)).rets
      obtain ⟨es, h1, h2⟩ := this
      cases h2
      have h3 : (execComments cs (PState.init expected mod m)).rets = [] := by rw [h1]; rfl
      show Matched _ (execComments cs (PState.init expected mod m)).rets []
      rw [h3]
      exact .nil
  | comments c cs =>
    cases h
    rw [fileNodes, hroot, callsOf_comments]
    exact fin (execComments_asks ..)

theorem expandDecls_failure {mod : Str} {args : List (Option Str)} {ds : List (DeclFlavor × Str)}
    {m m' : Maps} (h : expandDecls mod args ds m = .done .m4SubFailure m') :
    ∃ fl d, (fl, d) ∈ ds ∧ ∃ a b, d = a ++ '$' :: b ∧ ¬NumberAhead b := by
  induction ds generalizing m with
  | nil => cases h
  | cons x ds ih =>
    obtain ⟨fl, d⟩ := x
    simp only [expandDecls] at h
    split at h
    · cases h
    · rename_i as _
      split at h
      · cases h
      · rename_i hr
        exact ⟨fl, d, List.mem_cons_self .., (C20_fails_iff d as (by rw [hr]; simp)).1 hr⟩
      · obtain ⟨fl', d', h1, h2⟩ := ih h
        exact ⟨fl', d', List.mem_cons_of_mem _ h1, h2⟩

mutual
theorem add_failure (m0 : Maps) (fuel : Nat) {name : Str} {args : List (Option Str)}
    {parents : List Str} {mod : Str} {m m' : Maps} (hT : m.template = m0.template)
    (h : addTemplateDeclarations fuel name args parents mod m = .done .m4SubFailure m') :
    ∃ t, (t = name ∨ CallChain m0 name t) ∧ ∃ fl d, (fl, d) ∈ m0.templateDecls t ∧ ∃ a b, d = a ++ '$' :: b ∧ ¬NumberAhead b := by
  cases fuel with
  | zero => simp [addTemplateDeclarations] at h
  | succ fuel =>
    simp only [add_succ] at h
    split at h
    · cases h
    · rw [templateCalls_congr hT] at h
      split at h
      · rename_i m1 h1
        rw [templateDecls_congr hT] at h
        exact ⟨name, .inl rfl, expandDecls_failure h⟩
      · obtain ⟨c, hc, t, h1, h2⟩ := calls_failure m0 fuel (m0.templateCalls name) hT h
        exact ⟨t, .inr (chain_of hc (h1.imp Eq.symm id)), h2⟩
termination_by (fuel, 0)
theorem calls_failure (m0 : Maps) (fuel : Nat) {args : List (Option Str)} {chain : List Str}
    {mod : Str} (cs : List IfCallData) {m m' : Maps}
    (hT : m.template = m0.template) (h : expandCallsAt fuel args chain mod cs m = .done .m4SubFailure m') :
    ∃ c ∈ cs, ∃ t, (t = c.name ∨ CallChain m0 c.name t) ∧ ∃ fl d, (fl, d) ∈ m0.templateDecls t ∧
      ∃ a b, d = a ++ '$' :: b ∧ ¬NumberAhead b := by
  cases cs with
  | nil => simp [expandCallsAt_nil] at h
  | cons c cs =>
    simp only [expandCallsAt_cons] at h
    split at h
    · cases h
    · split at h
      · rename_i m1 h1
        obtain ⟨d, hd, h3⟩ := calls_failure m0 fuel cs (by rw [add_template fuel h1, hT]) h
        exact ⟨d, List.mem_cons_of_mem _ hd, h3⟩
      · exact ⟨c, List.mem_cons_self .., add_failure m0 fuel hT h⟩
termination_by (fuel, cs.length + 1)
end

/-- An expansion that does not succeed has a reason in the templates. -/
theorem expand_faulty {name : Str} {args : List Str} {mod : Str} {m m' : Maps} {e : SelintError}
    (h : expandTemplate name args mod m = .done e m') (he : e ≠ .success) : Faulty m name := by
  obtain ⟨h1 | rfl | rfl, h2, -⟩ := C18_loop_iff h
  · exact absurd h1 he
  · exact .inl (h2 rfl)
  · exact .inr (add_failure m _ rfl h)

theorem CallChain.mono {m m' : Maps} (hc : ∀ t, ∀ x ∈ m.templateCalls t, x ∈ m'.templateCalls t) {a b : Str}
    (h : CallChain m a b) : CallChain m' a b := by
  induction h with
  | one h => obtain ⟨c, h1, h2⟩ := h; exact .one ⟨c, hc _ _ h1, h2⟩
  | step h _ ih => obtain ⟨c, h1, h2⟩ := h; exact .step ⟨c, hc _ _ h1, h2⟩ ih

theorem Spec.Faulty.mono {m m' : Maps} (h : TemplatesGrow m m') {n : Str} (hf : Faulty m n) : Faulty m' n := by
  rcases hf with ⟨t, h1, h2⟩ | ⟨t, h1, fl, d, h2, h3⟩
  · exact .inl ⟨t, h1.imp id (CallChain.mono h.2), CallChain.mono h.2 h2⟩
  · exact .inr ⟨t, h1.imp id (CallChain.mono h.2), fl, d, h.1 _ _ h2, h3⟩

/-- A name that is no template is not faulty. -/
theorem not_faulty {m : Maps} {n : Str} (h : m.lookUpTemplate n = none) : ¬Faulty m n := by
  have h1 : m.templateCalls n = [] := by unfold Maps.templateCalls; rw [h]
  have h2 : m.templateDecls n = [] := by unfold Maps.templateDecls; rw [h]
  have h3 : ∀ t, ¬CallChain m n t := fun t hc => by
    obtain ⟨c, hc, -⟩ := chain_first hc
    rw [h1] at hc; cases hc
  rintro (⟨t, rfl | h4, h5⟩ | ⟨t, rfl | h4, fl, d, h5, -⟩)
  · exact h3 _ h5
  · exact h3 _ h4
  · rw [h2] at h5; cases h5
  · exact h3 _ h4

end Selint
