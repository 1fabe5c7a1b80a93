import Verif.Lemmas.ParseNodes
import Verif.Lemmas.Ordering
/-! # The tree of a te file has the shape the ordering check relies on -/

namespace Selint

open Spec

/-- Is the text of the token, if it is a name, one the scanner can produce: not starting with
an underscore? -/
def Token.NameOk : Token → Prop
  | .string s => s.head? ≠ some '_'
  | .numString s => s.head? ≠ some '_'
  | .number s => s.head? ≠ some '_'
  | .quoted s => s.head? ≠ some '_'
  | _ => True

instance (t : Token) : Decidable t.NameOk := by
  unfold Token.NameOk; split <;> infer_instance

/-- Every name among the tokens is one the scanner can produce. -/
def NamesOk (ts : List Token) : Prop := ∀ t ∈ ts, t.NameOk

instance (ts : List Token) : Decidable (NamesOk ts) := by unfold NamesOk; infer_instance

@[simp] theorem NamesOk.append {a b : List Token} : NamesOk (a ++ b) ↔ NamesOk a ∧ NamesOk b := by
  simp [NamesOk, or_imp, forall_and]

@[simp] theorem NamesOk.cons {t : Token} {b : List Token} :
    NamesOk (t :: b) ↔ t.NameOk ∧ NamesOk b := by
  simp [NamesOk]

theorem NamesOk.nil : NamesOk [] := by simp [NamesOk]

theorem SlItem.ordinary {i : SlItem} (h : NamesOk i.tokens) : i.value.head? ≠ some '_' := by
  cases i with
  | word s => exact h _ (List.mem_singleton.mpr rfl)
  | minus s => simp [SlItem.value]
  | quoted s => exact h _ (List.mem_singleton.mpr rfl)

theorem SList.value_ne {l : SList} : l.value ≠ [] := by
  cases l <;> simp [SList.value]

theorem SList.ordinary {l : SList} (h : NamesOk l.tokens) : OrdinaryFirst l.value := by
  cases l with
  | braces f r =>
    intro s hs
    cases hs
    simp only [SList.tokens, NamesOk.cons, NamesOk.append] at h
    exact SlItem.ordinary h.2.1.1
  | tilda l => intro s hs; cases hs; decide
  | item i => intro s hs; cases hs; exact SlItem.ordinary h
  | star => intro s hs; cases hs; decide

theorem XItem.ordinary {i : XItem} (h : NamesOk i.tokens) : i.value.head? ≠ some '_' := by
  cases i with
  | word s => exact h _ (List.mem_singleton.mpr rfl)
  | numString s => exact h _ (List.mem_singleton.mpr rfl)
  | number s => exact h _ (List.mem_singleton.mpr rfl)
  | dash => simp [XItem.value]

theorem XList.ordinary {l : XList} (h : NamesOk l.tokens) : OrdinaryFirst l.value := by
  cases l with
  | braces f r =>
    intro s hs
    cases hs
    simp only [XList.tokens, NamesOk.cons, NamesOk.append] at h
    exact XItem.ordinary h.2.1.1
  | tilda l => intro s hs; cases hs; decide
  | item i => intro s hs; cases hs; exact XItem.ordinary h

theorem Arg.ordinary {a : Arg} (h : NamesOk a.tokens) : OrdinaryFirst a.value := by
  cases a with
  | xperm l => exact XList.ordinary h
  | quoted s => intro t ht; cases ht; exact h _ (List.mem_singleton.mpr rfl)
  | words f r =>
    intro s hs
    cases hs
    simp only [Arg.tokens, NamesOk.cons, NamesOk.append] at h
    exact SlItem.ordinary h.2.1.1
  | empty => intro t ht; cases ht; decide

theorem Arg.value_ne {a : Arg} : a.value ≠ [] := by
  cases a with
  | xperm l => cases l <;> simp [Arg.value, XList.value]
  | _ => simp [Arg.value]

theorem Args.ordinary {a : Args} (h : NamesOk a.tokens) (n : Str) :
    OrdinaryFirst (IfCallData.argStrs ⟨n, a.value⟩) := by
  simp only [Args.tokens, NamesOk.append] at h
  intro s hs
  refine Arg.ordinary h.1 s ?_
  rw [← hs]
  have := Arg.value_ne (a := a.first)
  cases e : a.first.value with
  | nil => exact absurd e this
  | cons x xs => simp [IfCallData.argStrs, Args.value, e]

/-! ## Nodes -/

/-- Flavors of nodes without particular conditions. -/
def plainStatement (f : NodeFlavor) : Bool :=
  f ∉ [.startBlock, .decl, .typeAlias, .teFile, .ifFile, .fcFile, .sptFile, .avFile, .interfaceDef,
    .tempDef, .fcEntry, .cleanup]

theorem alias_node (a : Str) (line : Nat) : StmtNode (leaf (.plain .alias (some a)) line) := by
  simp [StmtNode, Shaped, ShapedList, NodeShaped, RuleShaped, leaf, Tree.info, NodeInfo.flavor, NodeData.flavor,
    PlainFlavor.toFlavor, isConditional, conditionalOf]

/-- Flavors of statements without children. -/
def leafFlavor (f : NodeFlavor) : Bool :=
  decide (f ∉ [.startBlock, .teFile, .ifFile, .fcFile, .sptFile, .avFile, .interfaceDef, .tempDef,
    .fcEntry, .cleanup]) && !isConditional f

theorem leaf_node {d : NodeData} {line : Nat} (hl : leafFlavor d.flavor = true)
    (h4 : RuleShaped d) : StmtNode (leaf d line) := by
  simp only [leafFlavor, Bool.and_eq_true, decide_eq_true_eq, List.mem_cons, not_or,
    List.not_mem_nil, not_false_eq_true, and_true, Bool.not_eq_true'] at hl
  have hfl : NodeInfo.flavor ⟨d, none, line⟩ = d.flavor := rfl
  refine ⟨⟨⟨by simp, by simp, by simp, ?_, h4, ?_⟩, by simp [ShapedList]⟩, hl.1.1⟩
  · intro h
    rw [hfl, hl.2] at h
    cases h
  · rw [hfl]
    simp [hl]

theorem simple_node {s : Simple} (line : Nat) (h : NamesOk s.tokens) : StmtNode (simpleNode line s) := by
  have al : ∀ {d : NodeData} {l : List Str}, hasAliases d.flavor = true →
      (RuleShaped d) →
      StmtNode (.mk ⟨d, none, line⟩ (l.map fun a => leaf (.plain .alias (some a)) line)) := by
    intro d l hd hm
    have hfl : d.flavor = .decl ∨ d.flavor = .typeAlias := by simpa [hasAliases] using hd
    have hall : ∀ c ∈ l.map fun a => leaf (.plain .alias (some a)) line,
        c.info.flavor = .alias ∧ Shaped c := by
      intro c hc
      obtain ⟨a, _, rfl⟩ := List.mem_map.mp hc
      exact ⟨rfl, (alias_node a line).1⟩
    refine ⟨⟨⟨?_, ?_, ?_, ?_, hm, ?_⟩, (shapedList_iff _).2 fun c hc => (hall c hc).2⟩, ?_⟩
    · intro c hc
      show _ = if hasAliases d.flavor then _ else _
      rw [if_pos hd]
      exact (hall c (List.mem_of_mem_head? hc)).1
    · intro c hc
      rw [(hall c (List.mem_of_mem_tail hc)).1]
      decide
    · show d.flavor = _ → _
      rcases hfl with e | e <;> simp [e]
    · show isConditional d.flavor → _
      rcases hfl with e | e <;> simp [e, isConditional, conditionalOf]
    · show d.flavor ∉ _
      rcases hfl with e | e <;> simp [e]
    · show d.flavor ≠ _
      rcases hfl with e | e <;> simp [e]
  unfold simpleNode
  cases s
  case decl d => exact al rfl trivial
  case typeAlias n l => exact al rfl trivial
  case rule fl s t c p =>
    simp only [Simple.tokens, NamesOk.cons, NamesOk.append] at h
    exact leaf_node rfl ⟨SList.value_ne, SList.ordinary h.2.1.1.1.1⟩
  case xrule fl s t c op p =>
    simp only [Simple.tokens, NamesOk.cons, NamesOk.append] at h
    exact leaf_node rfl ⟨SList.value_ne, SList.ordinary h.2.1.1.1.1⟩
  case typeTransition s t c d n =>
    simp only [Simple.tokens, NamesOk.cons, NamesOk.append] at h
    exact leaf_node rfl ⟨SList.value_ne, SList.ordinary h.2.1.1.1.2⟩
  case typeMember s t c d =>
    simp only [Simple.tokens, NamesOk.cons, NamesOk.append] at h
    exact leaf_node rfl ⟨SList.value_ne, SList.ordinary h.2.1.1.2⟩
  case typeChange s t c d =>
    simp only [Simple.tokens, NamesOk.cons, NamesOk.append] at h
    exact leaf_node rfl ⟨SList.value_ne, SList.ordinary h.2.1.1.2⟩
  case rangeTransition s t c r =>
    simp only [Simple.tokens, NamesOk.cons, NamesOk.append] at h
    exact leaf_node rfl ⟨SList.value_ne, SList.ordinary h.2.1.1.1.2⟩
  case call n a =>
    simp only [Simple.tokens, NamesOk.cons, NamesOk.append] at h
    cases a with
    | none => exact leaf_node rfl (fun s hs => by cases hs)
    | some a => exact leaf_node rfl (Args.ordinary h.2.2.1 n)
  all_goals exact leaf_node rfl trivial

/-! ## What building does to the shape -/

/-- A condition that does not depend on the exceptions. -/
def Spec.Steady (Q : Tree → Prop) : Prop :=
  ∀ i cs e, Q (.mk i cs) → Q (.mk { i with exceptions := e } cs)

theorem StmtNode.steady : Steady StmtNode := fun _ _ _ h => h

/-- The earliest node satisfies `Q`, the others are statements. -/
def StmtsAfter (Q : Tree → Prop) (ns : List Tree) : Prop :=
  ∃ xs last, ns = xs ++ [last] ∧ (∀ t ∈ xs, StmtNode t) ∧ Q last

theorem StmtsAfter.cons {Q : Tree → Prop} {ns : List Tree} (h : StmtsAfter Q ns) {t : Tree}
    (ht : StmtNode t) : StmtsAfter Q (t :: ns) := by
  obtain ⟨xs, last, rfl, h1, h2⟩ := h
  exact ⟨t :: xs, last, rfl, by simpa using ⟨ht, h1⟩, h2⟩

/-- Building keeps the shape. -/
def Keeps (build : Build → Build) : Prop :=
  ∀ (Q : Tree → Prop) (b : Build), Steady Q → StmtsAfter Q b.nodes →
    StmtsAfter Q (build b).nodes ∧ b.nodes.length ≤ (build b).nodes.length

namespace Keeps

theorem id : Keeps (fun b => b) := fun _ _ _ h => ⟨h, Nat.le_refl _⟩

theorem comp {f g : Build → Build} (hf : Keeps f) (hg : Keeps g) : Keeps (fun b => g (f b)) :=
  by
  intro Q b hq h
  obtain ⟨h1, h2⟩ := hf Q b hq h
  obtain ⟨h3, h4⟩ := hg Q _ hq h1
  exact ⟨h3, Nat.le_trans h2 h4⟩

theorem add {t : Tree} (ht : StmtNode t) : Keeps (fun b => b.add t) :=
  fun _ _ _ h => ⟨h.cons ht, by simp [Build.add]⟩

theorem call {t : Tree} (ht : StmtNode t) : Keeps (fun b => b.call t) := by
  intro Q b _ h
  show StmtsAfter Q (b.call t).nodes ∧ _ ≤ (b.call t).nodes.length
  unfold Build.call
  split
  · exact ⟨h.cons ht, by simp [Build.add]⟩
  · exact ⟨h.cons ht, by simp⟩
  · exact ⟨h, Nat.le_refl _⟩

theorem command {f : Build → Build} {c : Str} (hf : Keeps f) : Keeps (fun b => (f b).command c) := by
  intro Q b hq h
  obtain ⟨h, hl⟩ := hf Q b hq h
  show StmtsAfter Q ((f b).command c).nodes ∧ _ ≤ ((f b).command c).nodes.length
  unfold Build.command
  split
  · exact ⟨h, hl⟩
  · rename_i t ts e
    rw [e] at h hl
    refine ⟨?_, by simpa using hl⟩
    obtain ⟨xs, last, e', h1, h2⟩ := h
    obtain ⟨i, cs⟩ := t
    cases xs with
    | nil =>
      simp only [List.nil_append, List.cons.injEq] at e'
      obtain ⟨rfl, rfl⟩ := e'
      exact ⟨[], _, rfl, by simp, hq _ _ _ h2⟩
    | cons x xs =>
      simp only [List.cons_append, List.cons.injEq] at e'
      obtain ⟨rfl, rfl⟩ := e'
      refine ⟨_ :: xs, last, rfl, ?_, h2⟩
      intro u hu
      rcases List.mem_cons.mp hu with rfl | hu
      · exact StmtNode.steady _ _ _ (h1 _ (by simp))
      · exact h1 u (by simp [hu])

theorem block {f : Build → Build} (data : NodeData) (line : Nat) (cmd : Option Str)
    (hd : plainStatement data.flavor = true)
    (hm : RuleShaped data)
    (hf : Keeps f) : Keeps (Build.block data line cmd f) := by
  intro Q b hq h
  refine ⟨StmtsAfter.cons h ?_, by simp [Build.block]⟩
  have hm' : StmtsAfter (fun t => t.info.flavor = .startBlock ∧ Shaped t) [startMarker line] := by
    refine ⟨[], _, rfl, by simp, rfl, ?_⟩
    simp [startMarker, leaf, Shaped, ShapedList, NodeShaped, RuleShaped, NodeInfo.flavor, NodeData.flavor,
      PlainFlavor.toFlavor, isConditional, conditionalOf]
  obtain ⟨⟨xs, last, e, h1, h2, h3⟩, _⟩ := hf _ ⟨[startMarker line], b.answers⟩ (fun _ _ _ h => h) hm'
  simp only [plainStatement, decide_eq_true_eq, List.mem_cons, not_or, List.not_mem_nil,
    not_false_eq_true, and_true] at hd
  simp only [e, List.reverse_append, List.reverse_cons, List.reverse_nil, List.nil_append,
    List.singleton_append]
  have hfl : NodeInfo.flavor ⟨data, cmd.bind exceptionsOf, line⟩ = data.flavor := rfl
  refine ⟨⟨⟨?_, ?_, ?_, by simp, hm, ?_⟩, ?_⟩, ?_⟩
  · intro c hc
    cases hc
    rw [hfl, h2, if_neg]
    simp [hasAliases, hd]
  · intro c hc
    exact (h1 c (by simpa using hc)).2
  · intro e'
    exact absurd e' hd.1
  · rw [hfl]
    simp [hd]
  · refine (shapedList_iff _).2 fun t ht => ?_
    rcases List.mem_cons.mp ht with rfl | ht
    · exact h3
    · exact (h1 t (by simpa using ht)).1
  · exact hd.1

theorem decls (fl : DeclFlavor) (line : Nat) (ns : List Str) :
    Keeps (fun b => ns.foldl (fun b n => b.add (leaf (.decl ⟨fl, n, []⟩) line)) b) := by
  induction ns with
  | nil => exact id
  | cons n ns ih => exact (add (leaf_node (d := .decl _) rfl trivial)).comp ih

end Keeps

mutual
theorem keeps_reqLines : ∀ d : ReqLines, Keeps (buildReqLines d)
  | .one l => keeps_reqLine l
  | .more ls l => (keeps_reqLines ls).comp (keeps_reqLine l)
theorem keeps_reqLine : ∀ d : ReqLine, Keeps (buildReqLine d)
  | .bare s => keeps_reqStmt s
  | .withCommand s _ => (keeps_reqStmt s).command
theorem keeps_reqStmt : ∀ d : ReqStmt, Keeps (buildReqStmt d)
  | .decls line fl _ _ names => Keeps.decls fl line names.value
  | .cls line n l => Keeps.add (leaf_node (d := .decl _) rfl trivial)
  | .ifdef line _ _ _ body => Keeps.block _ _ _ rfl trivial (keeps_reqLines body)
  | .comment => Keeps.id
end

mutual
theorem keeps_lines : ∀ d : Lines, NamesOk d.tokens → Keeps (buildLines d)
  | .one l, h => keeps_line l h
  | .more ls l, h => by
    simp only [Lines.tokens, NamesOk.append] at h
    exact (keeps_lines ls h.1).comp (keeps_line l h.2)
theorem keeps_line : ∀ d : Line, NamesOk d.tokens → Keeps (buildLine d)
  | .bare s, h => keeps_stmt s h
  | .withCommand s _, h => by
    simp only [Line.tokens, NamesOk.append] at h
    exact (keeps_stmt s h.1).command
theorem keeps_stmt : ∀ d : Stmt, NamesOk d.tokens → Keeps (buildStmt d)
  | .silent _, _ => Keeps.id
  | .simple line s, h => by
    intro Q b
    simp only [buildStmt]
    split
    · exact Keeps.call (simple_node line h) Q b
    · exact Keeps.add (simple_node line h) Q b
  | .optional line cmd body, h => by
    simp only [Stmt.tokens, NamesOk.append] at h
    exact Keeps.block _ _ _ rfl trivial (keeps_lines body h.1.2)
  | .optionalEmpty line cmd, h => Keeps.block _ _ _ rfl trivial Keeps.id
  | .optionalElse line cmd body elseLine els, h => by
    simp only [Stmt.tokens, NamesOk.append] at h
    exact (Keeps.block (.plain .optionalPolicy none) _ _ rfl trivial (keeps_lines body h.1.1.1.2)).comp
      (Keeps.block (.plain .optionalElse none) _ _ rfl trivial (keeps_lines els h.1.2))
  | .genRequire line cmd cmd' body, h => Keeps.block _ _ _ rfl trivial (keeps_reqLines body)
  | .genRequireUnquoted line cmd body, h => Keeps.block _ _ _ rfl trivial (keeps_reqLines body)
  | .require line cmd body, h => Keeps.block _ _ _ rfl trivial (keeps_reqLines body)
  | .ifdef line _ _ args, h => by
    simp only [Stmt.tokens, NamesOk.append] at h
    exact Keeps.block _ _ _ rfl trivial (keeps_args args h.1.2)
  | .ifelse line args, h => by
    simp only [Stmt.tokens, NamesOk.append] at h
    exact Keeps.block _ _ _ rfl trivial (keeps_args args h.1.2)
  | .userdebugOrEng body, h => by
    simp only [Stmt.tokens, NamesOk.append] at h
    exact keeps_lines body h.1.2
  | .tunable line q c args, h => by
    simp only [Stmt.tokens, NamesOk.append, NamesOk.cons] at h
    exact Keeps.block _ _ _ rfl trivial (keeps_args args h.1.2.2)
  | .boolean line cmd _ body, h => by
    simp only [Stmt.tokens, NamesOk.append] at h
    exact Keeps.block _ _ _ rfl trivial (keeps_lines body h.1.2)
  | .booleanElse line cmd _ body els, h => by
    simp only [Stmt.tokens, NamesOk.append] at h
    exact Keeps.block (.plain .booleanPolicy none) _ _ rfl trivial
      ((keeps_lines body h.1.1.1.2).comp (keeps_lines els h.1.2))
  | .define line _ _ _, h => Keeps.block _ _ _ rfl trivial Keeps.id
theorem keeps_args : ∀ d : M4Args, NamesOk d.tokens → Keeps (buildArgs d)
  | .one line a, h => Keeps.block _ _ _ rfl trivial (keeps_arg a h)
  | .more as line a, h => by
    simp only [M4Args.tokens, NamesOk.append, NamesOk.cons] at h
    exact (keeps_args as h.1).comp (Keeps.block _ _ _ rfl trivial (keeps_arg a h.2.2))
theorem keeps_arg : ∀ d : M4Argument, NamesOk d.tokens → Keeps (buildArg d)
  | .empty, _ => Keeps.id
  | .emptyQuoted, _ => Keeps.id
  | .quoted body, h => by
    simp only [M4Argument.tokens, NamesOk.append, NamesOk.cons] at h
    exact keeps_lines body h.2.1
  | .word _, _ => Keeps.id
end

theorem keeps_comments (cs : List Nat) :
    Keeps (fun b => cs.foldl (fun b c => b.add (leaf (.plain .comment none) c)) b) := by
  induction cs with
  | nil => exact Keeps.id
  | cons c cs ih => exact (Keeps.add (leaf_node (d := .plain .comment none) rfl trivial)).comp ih

/-- The tree of a te file. -/
theorem parsed_teFile {cs : List Nat} {hd : Header} {body : Lines} {mod : Str} {m : Maps} {st : PState}
    (hc : CommandsOk (SourceFile.te cs hd body).tokens)
    (hn : NamesOk (SourceFile.te cs hd body).tokens)
    (h : (SourceFile.te cs hd body).exec .teFile mod m = .ok (some st)) :
    ∃ root rest, st.loc.unzip = root :: rest ∧ TeFile ⟨root, [], rest, []⟩ := by
  obtain ⟨hu, hr, hb⟩ := SourceFile.exec_follows hc h
  have hb := hb []
  simp only [SourceFile.tokens, NamesOk.append] at hn
  have hroot : Steady fun t => t.info.flavor = .teFile ∧ t.children = [] := fun _ _ _ h => h
  have k₁ := (keeps_comments cs) (fun t => t.info.flavor = .teFile ∧ t.children = [])
    ⟨[leaf (.plain .teFile none) 0], st.rets.map (fun e => decide (e = .success)) ++ []⟩ hroot
    ⟨[], _, rfl, by simp, rfl, rfl⟩
  have k₂ := (keeps_lines body hn.2) _ (Build.add _ (headerNode hd)) hroot
    (k₁.1.cons (t := headerNode hd) (leaf_node (d := .header _) rfl trivial))
  have e := hb
  simp only [buildFile] at e
  rw [e] at k₂
  obtain ⟨k, hlen⟩ := k₂
  have hlen₁ := k₁.2
  obtain ⟨xs, last, he, h1, h2, h3⟩ := k
  have hz : st.loc.unzip = last :: xs.reverse := by
    have : st.loc.unzip = (st.loc.focus :: st.loc.lefts).reverse := by
      simp [Loc.unzip, Loc.siblings, hu, hr, Loc.plug]
    rw [this, show st.loc.focus :: st.loc.lefts = xs ++ [last] from he]
    simp
  refine ⟨last, xs.reverse, hz, h2, rfl, h3, ?_, ?_, ?_⟩
  · intro hx
    rw [List.reverse_eq_nil_iff] at hx
    subst hx
    have hlen : _ ≤ (st.loc.focus :: st.loc.lefts).length := hlen
    rw [show st.loc.focus :: st.loc.lefts = [] ++ [last] from he] at hlen
    generalize List.foldl _ _ cs = b at hlen hlen₁
    simp only [Build.add, List.nil_append, List.length_cons, List.length_nil] at hlen hlen₁
    omega
  · exact (shapedList_iff _).2 fun t ht => (h1 t (by simpa using ht)).1
  · exact fun t ht => (h1 t (by simpa using ht)).2

end Selint
