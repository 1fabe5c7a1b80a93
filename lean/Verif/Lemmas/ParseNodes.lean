import Verif.Lemmas.Parse
/-! # The nodes of a derivation when every call can be expanded -/

namespace Selint

open Spec

namespace Spec

theorem bareList_eq_map (ts : List Tree) : bareList ts = ts.map bare := by
  induction ts with
  | nil => rfl
  | cons t ts ih => simp [bareList, ih]

theorem bare_leaf (d : NodeData) (n : Nat) : bare (leaf d n) = leaf d n := by
  simp [leaf, bare, bareList]

theorem bare_simpleNode (n : Nat) (s : Simple) : bare (simpleNode n s) = simpleNode n s := by
  simp [simpleNode, bare, bareList_eq_map, bare_leaf]

/-- `build` adds the given nodes, if no call fails. -/
def Adds (build : Build → Build) (ns : List Tree) : Prop :=
  ∀ b : Build, (∀ a ∈ b.answers, a = true) →
    (∀ a ∈ (build b).answers, a = true) ∧
    bareList (build b).nodes.reverse = bareList b.nodes.reverse ++ ns

namespace Adds

theorem id : Adds (fun b => b) [] := fun b h => ⟨h, by simp⟩

theorem comp {f g : Build → Build} {m n : List Tree} (hf : Adds f m) (hg : Adds g n) :
    Adds (fun b => g (f b)) (m ++ n) := by
  intro b h
  obtain ⟨h1, h2⟩ := hf b h
  obtain ⟨h3, h4⟩ := hg _ h1
  exact ⟨h3, by rw [h4, h2, List.append_assoc]⟩

theorem add {t : Tree} (ht : bare t = t) : Adds (fun b => b.add t) [t] := by
  intro b h
  exact ⟨h, by simp [Build.add, bareList_eq_map, ht]⟩

theorem call {t : Tree} (ht : bare t = t) : Adds (fun b => b.call t) [t] := by
  intro b h
  show (∀ a ∈ (b.call t).answers, a = true) ∧ bareList (b.call t).nodes.reverse = _
  unfold Build.call
  split
  · exact add ht b h
  · rename_i as e
    rw [e] at h
    exact ⟨fun a ha => h a (List.mem_cons_of_mem _ ha), by simp [bareList_eq_map, ht]⟩
  · rename_i as e
    rw [e] at h
    exact absurd (h false (by simp)) (by decide)

theorem command {f : Build → Build} {n : List Tree} {c : Str} (hf : Adds f n) :
    Adds (fun b => (f b).command c) n := by
  intro b h
  obtain ⟨h1, h2⟩ := hf b h
  show (∀ a ∈ ((f b).command c).answers, a = true) ∧ bareList ((f b).command c).nodes.reverse = _
  unfold Build.command
  split
  · exact ⟨h1, h2⟩
  · rename_i t ts e
    refine ⟨h1, ?_⟩
    rw [← h2, e]
    cases t with
    | mk i cs => simp [bareList_eq_map, bare]

theorem block {f : Build → Build} {n : List Tree} (data : NodeData) (line : Nat) (cmd : Option Str)
    (hf : Adds f n) : Adds (Build.block data line cmd f) [blockNode data line n] := by
  intro b h
  obtain ⟨h1, h2⟩ := hf ⟨[startMarker line], b.answers⟩ h
  refine ⟨h1, ?_⟩
  simp only [Build.block, List.reverse_cons, bareList_eq_map, List.map_append, List.map_cons,
    List.map_nil, bare, List.append_cancel_left_eq, List.cons.injEq, and_true] at h2 ⊢
  rw [h2]
  simp [blockNode, startMarker, bare_leaf]

theorem decls (fl : DeclFlavor) (line : Nat) (ns : List Str) :
    Adds (fun b => ns.foldl (fun b n => b.add (leaf (.decl ⟨fl, n, []⟩) line)) b)
      (ns.map fun n => leaf (.decl ⟨fl, n, []⟩) line) := by
  induction ns with
  | nil => exact id
  | cons n ns ih => exact (add (bare_leaf _ _)).comp ih

end Adds

mutual
theorem adds_reqLines : ∀ d : ReqLines, Adds (buildReqLines d) (reqLinesNodes d)
  | .one l => adds_reqLine l
  | .more ls l => (adds_reqLines ls).comp (adds_reqLine l)
theorem adds_reqLine : ∀ d : ReqLine, Adds (buildReqLine d) (reqLineNodes d)
  | .bare s => adds_reqStmt s
  | .withCommand s _ => (adds_reqStmt s).command
theorem adds_reqStmt : ∀ d : ReqStmt, Adds (buildReqStmt d) (reqStmtNodes d)
  | .decls line fl _ _ names => Adds.decls fl line names.value
  | .cls line n l => Adds.add (bare_leaf _ _)
  | .ifdef line _ _ _ body => Adds.block _ _ _ (adds_reqLines body)
  | .comment => Adds.id
end

mutual
theorem adds_lines : ∀ d : Lines, Adds (buildLines d) (linesNodes d)
  | .one l => adds_line l
  | .more ls l => (adds_lines ls).comp (adds_line l)
theorem adds_line : ∀ d : Line, Adds (buildLine d) (lineNodes d)
  | .bare s => adds_stmt s
  | .withCommand s _ => (adds_stmt s).command
theorem adds_stmt : ∀ d : Stmt, Adds (buildStmt d) (stmtNodes d)
  | .silent _ => Adds.id
  | .simple line s => by
    intro b hb
    simp only [buildStmt, stmtNodes]
    split
    · exact Adds.call (bare_simpleNode _ _) b hb
    · exact Adds.add (bare_simpleNode _ _) b hb
  | .optional line cmd body => Adds.block _ _ _ (adds_lines body)
  | .optionalEmpty line cmd => Adds.block _ _ _ Adds.id
  | .optionalElse line cmd body elseLine els =>
    (Adds.block _ _ _ (adds_lines body)).comp (Adds.block _ _ _ (adds_lines els))
  | .genRequire line cmd cmd' body => Adds.block _ _ _ (adds_reqLines body)
  | .genRequireUnquoted line cmd body => Adds.block _ _ _ (adds_reqLines body)
  | .require line cmd body => Adds.block _ _ _ (adds_reqLines body)
  | .ifdef line _ _ args => Adds.block _ _ _ (adds_args args)
  | .ifelse line args => Adds.block _ _ _ (adds_args args)
  | .userdebugOrEng body => adds_lines body
  | .tunable line _ _ args => Adds.block _ _ _ (adds_args args)
  | .boolean line cmd _ body => Adds.block _ _ _ (adds_lines body)
  | .booleanElse line cmd _ body els => Adds.block _ _ _ ((adds_lines body).comp (adds_lines els))
  | .define line _ _ _ => Adds.block _ _ _ Adds.id
theorem adds_args : ∀ d : M4Args, Adds (buildArgs d) (argsNodes d)
  | .one line a => Adds.block _ _ _ (adds_arg a)
  | .more as line a => (adds_args as).comp (Adds.block _ _ _ (adds_arg a))
theorem adds_arg : ∀ d : M4Argument, Adds (buildArg d) (argNodes d)
  | .empty => Adds.id
  | .emptyQuoted => Adds.id
  | .quoted body => adds_lines body
  | .word _ => Adds.id
end

theorem adds_ifDef (d : IfDef) : Adds (buildIfDef d) [ifDefNode d] := by
  unfold buildIfDef ifDefNode
  cases d.body with
  | none => exact Adds.block _ _ _ Adds.id
  | some b => exact Adds.block _ _ _ (adds_lines b)

theorem adds_ifLines (ls : List IfLine) : Adds (fun b => ls.foldl buildIfLine b) (ls.map ifLineNode) := by
  induction ls with
  | nil => exact Adds.id
  | cons l ls ih =>
    have h : Adds (fun b => buildIfLine b l) [ifLineNode l] := by
      cases l with
      | defn d => exact adds_ifDef d
      | comment n => exact Adds.add (bare_leaf _ _)
    exact h.comp ih

theorem adds_comments (cs : List Nat) :
    Adds (fun b => cs.foldl (fun b c => b.add (leaf (.plain .comment none) c)) b)
      (cs.map (leaf (.plain .comment none))) := by
  induction cs with
  | nil => exact Adds.id
  | cons c cs ih => exact (Adds.add (bare_leaf _ _)).comp ih

theorem buildFile_nodes (f : SourceFile) (expected : PlainFlavor) (answers : List Bool)
    (h : ∀ a ∈ answers, a = true) :
    bareList (buildFile f expected answers).nodes.reverse = fileNodes expected f := by
  have root : ∀ {g : Build → Build} {ns : List Tree}, Adds g ns →
      bareList (g ⟨[leaf (.plain expected none) 0], answers⟩).nodes.reverse =
        leaf (.plain expected none) 0 :: ns := by
    intro g ns hg
    rw [(hg ⟨_, answers⟩ h).2]
    simp [bareList_eq_map, bare_leaf]
  cases f with
  | empty => simp [buildFile, fileNodes, bareList_eq_map, bare_leaf]
  | te cs hd b =>
    refine (root (((adds_comments cs).comp (Adds.add (t := headerNode hd) (bare_leaf _ _))).comp
      (adds_lines b))).trans ?_
    simp [fileNodes]
  | iface cs d ls =>
    refine (root (((adds_comments cs).comp (adds_ifDef d)).comp (adds_ifLines ls))).trans ?_
    simp [fileNodes]
  | spt cs _ _ => exact root (adds_comments cs)
  | av cs _ _ => exact root (adds_comments cs)
  | comments c cs => exact root (adds_comments (c :: cs))

end Spec

/-! ## Whole files -/

theorem execComments_follows (cs : List Nat) : ∀ st : PState, st.loc.rights = [] →
    Builds (fun b => cs.foldl (fun b c => b.add (leaf (.plain .comment none) c)) b) st
      (execComments cs st) := by
  induction cs with
  | nil => intro st h; exact Builds.refl h
  | cons c cs ih =>
    intro st _
    exact (Builds.statement st (.plain .comment none) c).trans (ih _ rfl)

theorem IfDef.exec_follows {d : IfDef} {st st' : PState} (hc : CommandsOk d.tokens)
    (h : d.exec st = .ok st') : Builds (buildIfDef d) st st' := by
  obtain ⟨line, isT, name, cmd, body⟩ := d
  simp only [IfDef.tokens, CommandsOk.append] at hc
  unfold IfDef.exec at h
  obtain ⟨st₂, h₂, h⟩ := Res.bind_eq_ok h
  have fin : Builds (buildBody body)
      ((st.beginInterfaceDef isT name line)) st₂ := by
    cases body with
    | none => cases h₂; exact Builds.refl rfl
    | some b => exact b.exec_follows _ _ rfl hc.1.2 h₂
  have hend : st₂.endInterfaceDef = st₂.endBlock (if isT then .tempDef else .interfaceDef) := by
    have hu : st₂.loc.ups = ⟨st.loc.focus :: st.loc.lefts,
        ⟨.plain (if isT then .tempDef else .interfaceDef) (some name), none, line⟩, []⟩ :: st.loc.ups :=
      fin.ups
    unfold PState.endInterfaceDef Loc.parent?
    rw [hu]
    cases isT <;> rfl
  have fb : Builds (Build.block (.plain (if isT then .tempDef else .interfaceDef) (some name)) line none
      (buildBody body)) st
      (st₂.endBlock (if isT then .tempDef else .interfaceDef)) := by
    refine Builds.maps ((if isT then st.maps.insertTemplate name else st.maps).insertIf name st.module) ?_
    refine Builds.block (cmd := none) (by simp) ?_ (by cases isT <;> rfl)
    exact fin
  cases cmd with
  | none =>
    cases h
    dsimp only
    rw [hend]
    exact fb
  | some c =>
    cases h
    dsimp only
    rw [hend]
    exact fb.command (commandTokens_ok hc.1.1.2 c rfl)

theorem execIfLines_follows (ls : List IfLine) : ∀ st st' : PState, st.loc.rights = [] →
    CommandsOk (ls.flatMap IfLine.tokens) → execIfLines ls st = .ok st' →
    Builds (fun b => ls.foldl buildIfLine b) st st' := by
  induction ls with
  | nil => intro st st' hr _ h; cases h; exact Builds.refl hr
  | cons l ls ih =>
    intro st st' hr hc h
    rw [List.flatMap_cons, CommandsOk.append] at hc
    obtain ⟨st₁, h₁, h⟩ := Res.bind_eq_ok h
    have f₁ : Builds (fun b => buildIfLine b l) st st₁ := by
      cases l with
      | defn d => exact IfDef.exec_follows hc.1 h₁
      | comment n => cases h₁; exact Builds.statement _ _ _
    exact f₁.trans (ih _ _ f₁.rights hc.2 h)

theorem SourceFile.exec_follows {f : SourceFile} {expected : PlainFlavor} {mod : Str} {m : Maps}
    {st : PState} (hc : CommandsOk f.tokens) (h : f.exec expected mod m = .ok (some st)) :
    st.loc.ups = [] ∧ st.loc.rights = [] ∧ ∀ more,
      buildFile f expected (st.rets.map (fun e => decide (e = .success)) ++ more) =
        ⟨st.loc.focus :: st.loc.lefts, more⟩ := by
  have fin : ∀ {g : Build → Build}, Builds g (PState.init expected mod m) st →
      st.loc.ups = [] ∧ st.loc.rights = [] ∧ ∀ more,
        g ⟨[leaf (.plain expected none) 0], (st.rets.map (fun e => decide (e = .success)) ++ more)⟩ =
        ⟨st.loc.focus :: st.loc.lefts, more⟩ := by
    intro g hg
    obtain ⟨es, hes, hn⟩ := hg.nodes
    refine ⟨hg.ups, hg.rights, ?_⟩
    intro more
    have : st.rets = es := hes
    rw [this]
    exact hn more
  unfold SourceFile.exec at h
  cases f with
  | empty =>
    cases h
    exact ⟨rfl, rfl, fun more => rfl⟩
  | te cs hd b =>
    dsimp only at h
    split at h
    · cases h
    · obtain ⟨st₁, h₁, h⟩ := Res.bind_eq_ok h
      cases h
      simp only [SourceFile.tokens, CommandsOk.append] at hc
      exact fin (((execComments_follows cs _ rfl).trans (Builds.statement _ _ _)).trans
        (b.exec_follows _ _ rfl hc.2 h₁))
  | iface cs d ls =>
    dsimp only at h
    split at h
    · cases h
    · obtain ⟨st₁, h₁, h⟩ := Res.bind_eq_ok h
      obtain ⟨st₂, h₂, h⟩ := Res.bind_eq_ok h
      cases h
      simp only [SourceFile.tokens, CommandsOk.append] at hc
      have f₁ := IfDef.exec_follows hc.1.2 h₁
      exact fin (((execComments_follows cs _ rfl).trans f₁).trans
        (execIfLines_follows ls _ _ f₁.rights hc.2 h₂))
  | spt cs d ls =>
    dsimp only at h
    split at h
    · cases h
    · cases h
      have f₁ := execComments_follows cs (PState.init expected mod m) rfl
      exact fin (f₁.mapsAfter _)
  | av cs d ls =>
    dsimp only at h
    split at h
    · cases h
    · cases h
      have f₁ := execComments_follows cs (PState.init expected mod m) rfl
      exact fin (f₁.mapsAfter _)
  | comments c cs =>
    cases h
    exact fin (execComments_follows (c :: cs) (PState.init expected mod m) rfl)

end Selint
