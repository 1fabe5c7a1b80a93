import Verif.Model.ParseFunctions
import Verif.Spec.Parse
/-! # The actions of a derivation build the tree the specification describes -/

namespace Selint

open Spec

/-- Is the token, if it is a command, one the scanner can produce? -/
def Token.CommandOk : Token → Prop
  | .command c => cs!"#selint-disable:" <+: c
  | _ => True

instance (t : Token) : Decidable t.CommandOk := by
  unfold Token.CommandOk; split <;> infer_instance

/-- Every command among the tokens is one the scanner can produce. -/
def CommandsOk (ts : List Token) : Prop := ∀ t ∈ ts, t.CommandOk

instance (ts : List Token) : Decidable (CommandsOk ts) := by unfold CommandsOk; infer_instance

theorem CommandsOk.append {a b : List Token} : CommandsOk (a ++ b) ↔ CommandsOk a ∧ CommandsOk b := by
  simp [CommandsOk, or_imp, forall_and]

theorem CommandsOk.cons {t : Token} {b : List Token} :
    CommandsOk (t :: b) ↔ t.CommandOk ∧ CommandsOk b := by
  simp [CommandsOk]

theorem CommandsOk.nil : CommandsOk [] := by simp [CommandsOk]

theorem saveCommand_eq {c : Str} (h : cs!"#selint-disable:" <+: c) (i : NodeInfo) :
    PState.saveCommand c i = { i with exceptions := exceptionsOf c } := by
  obtain ⟨e, rfl⟩ := h
  simp [PState.saveCommand, PState.commandExceptions, exceptionsOf]

/-- What running some actions did: the nesting is as before, nothing follows the cursor, and
the nodes of the current level are those that `build` gives. -/
structure Builds (build : Build → Build) (st st' : PState) : Prop where
  module : st'.module = st.module
  ups : st'.loc.ups = st.loc.ups
  rights : st'.loc.rights = []
  nodes : ∃ es, st'.rets = st.rets ++ es ∧ ∀ more,
    build ⟨st.loc.focus :: st.loc.lefts, es.map (fun e => decide (e = .success)) ++ more⟩ =
      ⟨st'.loc.focus :: st'.loc.lefts, more⟩

namespace Builds

theorem refl {st : PState} (h : st.loc.rights = []) : Builds (fun b => b) st st :=
  ⟨rfl, rfl, h, [], by simp, by simp⟩

theorem trans {f g : Build → Build} {a b c : PState} (h₁ : Builds f a b) (h₂ : Builds g b c) :
    Builds (fun x => g (f x)) a c := by
  obtain ⟨es, hes, h₁n⟩ := h₁.nodes
  obtain ⟨fs, hfs, h₂n⟩ := h₂.nodes
  refine ⟨h₂.module.trans h₁.module, h₂.ups.trans h₁.ups, h₂.rights, es ++ fs, ?_, ?_⟩
  · rw [hfs, hes, List.append_assoc]
  · intro more
    rw [List.map_append, List.append_assoc, h₁n, h₂n]

theorem congr {f g : Build → Build} {a b : PState} (h : Builds f a b) (e : ∀ x, f x = g x) :
    Builds g a b := by
  have : f = g := funext e
  exact this ▸ h

/-- A state that differs from `st` in the symbol tables only. -/
theorem maps {f : Build → Build} {st st' : PState} (m : Maps)
    (h : Builds f { st with maps := m } st') : Builds f st st' :=
  ⟨h.module, h.ups, h.rights, h.nodes⟩

theorem mapsAfter {f : Build → Build} {st st' : PState} (m : Maps) (h : Builds f st st') :
    Builds f st { st' with maps := m } :=
  ⟨h.module, h.ups, h.rights, h.nodes⟩

theorem statement (st : PState) (data : NodeData) (line : Nat) :
    Builds (fun b => b.add (leaf data line)) st (st.statement data line) :=
  ⟨rfl, rfl, rfl, [], by simp [PState.statement, PState.grow], by
    intro more
    simp [Build.add, leaf, PState.statement, PState.grow, Loc.grow, Loc.addNext]⟩

theorem command {f : Build → Build} {st st' : PState} {c : Str} (h : Builds f st st')
    (hc : cs!"#selint-disable:" <+: c) : Builds (fun b => (f b).command c) st (st'.command c) := by
  obtain ⟨es, hes, hn⟩ := h.nodes
  refine ⟨h.module, h.ups, h.rights, es, hes, ?_⟩
  intro more
  rw [hn]
  simp [Build.command, PState.command, PState.grow, Loc.grow, Loc.update, saveCommand_eq hc]

/-- Leaving a block. -/
theorem close {inside : Build → Build} {st st₁ st₂ : PState} {i : NodeInfo} {line : Nat}
    {fl : NodeFlavor}
    (hm : st₁.module = st.module) (hr : st₁.rets = st.rets)
    (hl : st₁.loc = ⟨startMarker line, [], [], ⟨st.loc.focus :: st.loc.lefts, i, []⟩ :: st.loc.ups⟩)
    (h : Builds inside st₁ st₂) (hfl : i.flavor = fl) :
    Builds (fun b =>
      let r := inside ⟨[startMarker line], b.answers⟩
      ⟨.mk i r.nodes.reverse :: b.nodes, r.answers⟩) st (st₂.endBlock fl) := by
  obtain ⟨es, hes, hn⟩ := h.nodes
  have hu := h.ups
  rw [hl] at hu hn
  have hloc : (st₂.endBlock fl).loc = ⟨.mk i (st₂.loc.lefts.reverse ++ [st₂.loc.focus]),
      st.loc.focus :: st.loc.lefts, [], st.loc.ups⟩ := by
    simp [PState.endBlock, PState.grow, Loc.grow, Loc.closeBlock, Loc.parent?, hu, Loc.info, hfl,
      h.rights]
  refine ⟨?_, ?_, ?_, es, ?_, ?_⟩
  · exact h.module.trans hm
  · rw [hloc]
  · rw [hloc]
  · rw [← hr]; exact hes
  · intro more
    simp only [hn, hloc]
    simp

theorem begin_loc (st : PState) (data : NodeData) (line : Nat) (cmd : Option Str)
    (hc : ∀ c ∈ cmd, cs!"#selint-disable:" <+: c) :
    ((st.beginBlock data line).parentCommand cmd).loc =
      ⟨startMarker line, [], [], ⟨st.loc.focus :: st.loc.lefts, ⟨data, cmd.bind exceptionsOf, line⟩, []⟩
        :: st.loc.ups⟩ ∧
    ((st.beginBlock data line).parentCommand cmd).module = st.module ∧
    ((st.beginBlock data line).parentCommand cmd).rets = st.rets ∧
    ((st.beginBlock data line).parentCommand cmd).maps = st.maps := by
  cases cmd with
  | none => exact ⟨rfl, rfl, rfl, rfl⟩
  | some c =>
    simp [PState.parentCommand, PState.beginBlock, PState.grow, Loc.grow, Loc.openBlock,
      Loc.updateParent, saveCommand_eq (hc c rfl), startMarker, leaf]

/-- A block. -/
theorem block {inside : Build → Build} {st st₂ : PState} {data : NodeData} {line : Nat}
    {cmd : Option Str} {fl : NodeFlavor} (hc : ∀ c ∈ cmd, cs!"#selint-disable:" <+: c)
    (h : Builds inside ((st.beginBlock data line).parentCommand cmd) st₂) (hfl : data.flavor = fl) :
    Builds (Build.block data line cmd inside) st (st₂.endBlock fl) := by
  obtain ⟨hl, hm, hr, _⟩ := begin_loc st data line cmd hc
  exact close hm hr hl h hfl

/-- A `gen_require` block: the flag is stored at its end. -/
theorem genRequire {inside : Build → Build} {st st₂ : PState} {line : Nat} {u : Bool}
    {cmd : Option Str} (hc : ∀ c ∈ cmd, cs!"#selint-disable:" <+: c)
    (h : Builds inside ((st.beginGenRequire line).parentCommand cmd) st₂) :
    Builds (Build.block (.genReq u) line cmd inside) st (st₂.endGenRequire u) := by
  obtain ⟨hl, hm, hr, _⟩ := begin_loc st (.genReq false) line cmd hc
  obtain ⟨es, hes, hn⟩ := h.nodes
  have hu := h.ups
  unfold PState.beginGenRequire at hu hn
  rw [hl] at hu hn
  have h' : Builds inside
      { st with loc := ⟨startMarker line, [], [],
        ⟨st.loc.focus :: st.loc.lefts, ⟨.genReq u, cmd.bind exceptionsOf, line⟩, []⟩ :: st.loc.ups⟩ }
      (st₂.grow (.updateParent (PState.setUnquoted u))) := by
    refine ⟨h.module.trans hm, ?_, ?_, es, ?_, ?_⟩
    · simp [PState.grow, Loc.grow, Loc.updateParent, hu, PState.setUnquoted]
    · simp [PState.grow, Loc.grow, Loc.updateParent, hu, h.rights]
    · exact hes.trans (by unfold PState.beginGenRequire; rw [hr])
    · intro more
      rw [hn]
      simp [PState.grow, Loc.grow, Loc.updateParent, hu]
  refine close (fl := .genReq) ?_ ?_ ?_ h' rfl <;> rfl

end Builds

theorem declareName_loc (st : PState) (fl : DeclFlavor) (n : Str) :
    ∃ m, st.declareName fl n = { st with maps := m } := by
  unfold PState.declareName
  repeat' split
  all_goals exact ⟨_, rfl⟩

theorem insertDeclaration_follows (st : PState) (fl : DeclFlavor) (n : Str) (as : List Str) (line : Nat) :
    Builds (fun b => b.add (leaf (.decl ⟨fl, n, as⟩) line)) st (st.insertDeclaration fl n as line) := by
  obtain ⟨m, hm⟩ := declareName_loc st fl n
  unfold PState.insertDeclaration
  rw [hm]
  exact (Builds.statement _ _ _).maps m

theorem insertDeclarations_follows (fl : DeclFlavor) (line : Nat) (ns : List Str) : ∀ (st : PState),
    st.loc.rights = [] →
    Builds (fun b => ns.foldl (fun b n => b.add (leaf (.decl ⟨fl, n, []⟩) line)) b) st
      (ns.foldl (fun st n => st.insertDeclaration fl n [] line) st) := by
  induction ns with
  | nil => intro st h; exact Builds.refl h
  | cons n ns ih =>
    intro st _
    have h₁ := insertDeclaration_follows st fl n [] line
    exact h₁.trans (ih _ h₁.rights)

theorem insertAlias_loc (st : PState) (fl : DeclFlavor) (line : Nat) (a : Str) :
    (st.insertAlias fl line a).module = st.module ∧ (st.insertAlias fl line a).rets = st.rets ∧
    (st.insertAlias fl line a).loc = st.loc.addChild ⟨.plain .alias (some a), none, line⟩ := by
  unfold PState.insertAlias
  cases st.loc.getNameIfInTemplate <;> exact ⟨rfl, rfl, rfl⟩

theorem insertAliases_loc (fl : DeclFlavor) (line : Nat) (as : List Str) : ∀ (st : PState),
    (st.insertAliases as fl line).module = st.module ∧ (st.insertAliases as fl line).rets = st.rets ∧
    (st.insertAliases as fl line).loc = { st.loc with
      focus := .mk st.loc.focus.info
        (st.loc.focus.children ++ as.map fun a => leaf (.plain .alias (some a)) line) } := by
  induction as with
  | nil => intro st; simp [PState.insertAliases]
  | cons a as ih =>
    intro st
    obtain ⟨h1, h2, h3⟩ := insertAlias_loc st fl line a
    obtain ⟨i1, i2, i3⟩ := ih (st.insertAlias fl line a)
    refine ⟨i1.trans h1, i2.trans h2, ?_⟩
    refine Eq.trans i3 ?_
    rw [h3]
    simp [Loc.addChild, leaf]

theorem aliases_follows {st st' : PState} {data : NodeData} {line : Nat} {fl : DeclFlavor} (as : List Str)
    (h : Builds (fun b => b.add (leaf data line)) st st') :
    Builds (fun b => b.add (.mk ⟨data, none, line⟩ (as.map fun a => leaf (.plain .alias (some a)) line)))
      st (st'.insertAliases as fl line) := by
  obtain ⟨h1, h2, h3⟩ := insertAliases_loc fl line as st'
  obtain ⟨es, hes, hn⟩ := h.nodes
  refine ⟨h1.trans h.module, ?_, ?_, es, h2.trans hes, ?_⟩
  · rw [h3]; exact h.ups
  · rw [h3]; exact h.rights
  · intro more
    have := hn more
    simp only [Build.add, leaf, Build.mk.injEq, List.cons.injEq] at this ⊢
    rw [h3]
    simp [← this.1.1, ← this.1.2, this.2, leaf]

theorem Decl.exec_follows (d : Decl) (line : Nat) (st : PState) :
    Builds (fun b => b.add (simpleNode line (.decl d))) st (d.exec line st) := by
  cases d with
  | typeAlias n l => exact aliases_follows _ (insertDeclaration_follows st .type n [] line)
  | typeAliasAttrs n l a => exact aliases_follows _ (insertDeclaration_follows st .type n a.value line)
  | _ => exact insertDeclaration_follows st _ _ _ line

theorem insertInterfaceCall_follows {st st' : PState} {c : IfCallData} {line : Nat}
    (hr : st.loc.rights = []) (h : st.insertInterfaceCall c line = .ok st') :
    Builds (fun b => b.call (leaf (.ifCall c) line)) st st' := by
  unfold PState.insertInterfaceCall at h
  split at h
  · cases h
  · cases h
  · rename_i e m _
    by_cases he : e = .success
    · simp only [he, if_true] at h
      cases h
      split <;> (try split) <;>
      · refine ⟨rfl, rfl, rfl, [e], by simp [PState.statement, PState.grow, he], ?_⟩
        intro more
        simp [he, Build.call, leaf, PState.statement, PState.grow, Loc.grow, Loc.addNext]
    · simp only [if_neg he] at h
      cases h
      refine ⟨rfl, rfl, hr, [e], rfl, ?_⟩
      intro more
      simp [he, Build.call]

theorem insertAttribute_follows (st : PState) (d : AttrData) (line : Nat) :
    Builds (fun b => b.add (leaf (.attr d) line)) st (st.insertAttribute d line) := by
  have h := Builds.statement st (.attr d) line
  unfold PState.insertAttribute
  dsimp only
  repeat' split
  · exact ⟨h.module, h.ups, h.rights, h.nodes⟩
  · exact h
  · exact h

theorem Simple.exec_follows {s : Simple} {line : Nat} {st st' : PState} (hr : st.loc.rights = [])
    (h : s.exec line st = .ok st') :
    Builds (buildStmt (.simple line s)) st st' := by
  cases s <;> simp only [Simple.exec] at h
  case decl d => cases h; exact (d.exec_follows line st).congr fun _ => by simp [buildStmt, isCall]
  case typeAttribute => cases h; exact insertAttribute_follows _ _ _
  case roleAttribute => cases h; exact insertAttribute_follows _ _ _
  case typeAlias n l => cases h; exact aliases_follows _ (Builds.statement st _ line)
  case rule =>
    cases h
    unfold PState.insertAvRule
    dsimp only
    repeat' split
    · exact (Builds.statement _ _ _).maps _
    · exact Builds.statement _ _ _
    · exact Builds.statement _ _ _
  case xrule => cases h; exact Builds.statement _ _ _
  case roleAllow => cases h; exact Builds.statement _ _ _
  case roleTypes =>
    cases h
    unfold PState.insertRoleTypes
    dsimp only
    repeat' split
    · exact (Builds.statement _ _ _).maps _
    · exact Builds.statement _ _ _
    · exact Builds.statement _ _ _
  case typeTransition =>
    cases h
    unfold PState.insertTypeTransition
    dsimp only
    repeat' split
    · exact Builds.statement _ _ _
    · exact (Builds.statement _ _ _).maps _
    · exact Builds.statement _ _ _
  case typeMember =>
    cases h
    unfold PState.insertTypeTransition
    dsimp only
    repeat' split
    · exact Builds.statement _ _ _
    · exact (Builds.statement _ _ _).maps _
    · exact Builds.statement _ _ _
  case typeChange =>
    cases h
    unfold PState.insertTypeTransition
    dsimp only
    repeat' split
    · exact Builds.statement _ _ _
    · exact (Builds.statement _ _ _).maps _
    · exact Builds.statement _ _ _
  case rangeTransition =>
    cases h
    unfold PState.insertTypeTransition
    dsimp only
    repeat' split
    · exact Builds.statement _ _ _
    · exact (Builds.statement _ _ _).maps _
    · exact Builds.statement _ _ _
  case roleTransition => cases h; exact Builds.statement _ _ _
  case roleTransitionClass => cases h; exact Builds.statement _ _ _
  case call n a =>
    cases a with
    | none => exact insertInterfaceCall_follows hr h
    | some a => exact insertInterfaceCall_follows hr h
  case simpleMacro => cases h; exact Builds.statement _ _ _
  case permissive => cases h; exact Builds.statement _ _ _
  case semicolon => cases h; exact Builds.statement _ _ _

theorem commandTokens_ok {cmd : Option Str} (h : CommandsOk (commandTokens cmd)) :
    ∀ c ∈ cmd, cs!"#selint-disable:" <+: c := by
  intro c hc
  cases hc
  exact h (.command c) (by simp [commandTokens])

theorem begin_rights (st : PState) (data : NodeData) (line : Nat) (cmd : Option Str) :
    ((st.beginBlock data line).parentCommand cmd).loc.rights = [] := by
  cases cmd <;> rfl

mutual
theorem ReqLines.exec_follows : ∀ (d : ReqLines) (st : PState), st.loc.rights = [] →
    CommandsOk d.tokens → Builds (buildReqLines d) st (d.exec st)
  | .one l, st, hr, hc => l.exec_follows st hr hc
  | .more ls l, st, hr, hc => by
    rw [ReqLines.tokens, CommandsOk.append] at hc
    have h := ls.exec_follows st hr hc.1
    exact h.trans (l.exec_follows _ h.rights hc.2)
theorem ReqLine.exec_follows : ∀ (d : ReqLine) (st : PState), st.loc.rights = [] →
    CommandsOk d.tokens → Builds (buildReqLine d) st (d.exec st)
  | .bare s, st, hr, hc => s.exec_follows st hr hc
  | .withCommand s c, st, hr, hc => by
    rw [ReqLine.tokens, CommandsOk.append] at hc
    exact (s.exec_follows st hr hc.1).command (hc.2 (.command c) (by simp))
theorem ReqStmt.exec_follows : ∀ (d : ReqStmt) (st : PState), st.loc.rights = [] →
    CommandsOk d.tokens → Builds (buildReqStmt d) st (d.exec st)
  | .decls line fl _ _ names, st, hr, _ => insertDeclarations_follows fl line names.value st hr
  | .cls line n l, st, _, _ => insertDeclaration_follows st _ _ _ line
  | .ifdef line neg quoted cond body, st, _, hc => by
    have hc' : CommandsOk body.tokens := by
      cases quoted <;> simp [ReqStmt.tokens, CommandsOk.append, CommandsOk.cons] at hc <;> simp [hc]
    exact Builds.block (cmd := none) (by simp) (body.exec_follows _ rfl hc') rfl
  | .comment, st, hr, _ => Builds.refl hr
end

theorem Res.bind_eq_ok {α β : Type} {x : Res α} {f : α → Res β} {b : β} (h : (x >>= f) = .ok b) :
    ∃ a, x = .ok a ∧ f a = .ok b := by
  cases x with
  | ok a => exact ⟨a, rfl, h⟩
  | ub => cases h

mutual
theorem Lines.exec_follows : ∀ (d : Lines) (st st' : PState), st.loc.rights = [] →
    CommandsOk d.tokens → d.exec st = .ok st' → Builds (buildLines d) st st'
  | .one l, st, st', hr, hc, h => l.exec_follows st st' hr hc h
  | .more ls l, st, st', hr, hc, h => by
    rw [Lines.tokens, CommandsOk.append] at hc
    obtain ⟨st₁, h₁, h₂⟩ := Res.bind_eq_ok h
    have f₁ := ls.exec_follows st st₁ hr hc.1 h₁
    exact f₁.trans (l.exec_follows _ _ f₁.rights hc.2 h₂)
theorem Line.exec_follows : ∀ (d : Line) (st st' : PState), st.loc.rights = [] →
    CommandsOk d.tokens → d.exec st = .ok st' → Builds (buildLine d) st st'
  | .bare s, st, st', hr, hc, h => s.exec_follows st st' hr hc h
  | .withCommand s c, st, st', hr, hc, h => by
    rw [Line.tokens, CommandsOk.append] at hc
    obtain ⟨st₁, h₁, h₂⟩ := Res.bind_eq_ok h
    cases h₂
    exact (s.exec_follows st st₁ hr hc.1 h₁).command (hc.2 (.command c) (by simp))
theorem Stmt.exec_follows : ∀ (d : Stmt) (st st' : PState), st.loc.rights = [] →
    CommandsOk d.tokens → d.exec st = .ok st' → Builds (buildStmt d) st st'
  | .silent _, st, st', hr, _, h => by cases h; exact Builds.refl hr
  | .simple line s, st, st', hr, _, h => Simple.exec_follows hr h
  | .optional line cmd body, st, st', hr, hc, h => by
    simp only [Stmt.tokens, CommandsOk.append] at hc
    obtain ⟨st₁, h₁, h₂⟩ := Res.bind_eq_ok h
    cases h₂
    exact Builds.block (commandTokens_ok hc.1.1.2)
      (body.exec_follows _ _ (begin_rights _ _ _ _) hc.1.2 h₁) rfl
  | .optionalEmpty line cmd, st, st', hr, hc, h => by
    simp only [Stmt.tokens, CommandsOk.append] at hc
    cases h
    exact Builds.block (inside := id) (commandTokens_ok hc.1.2)
      (Builds.refl (begin_rights _ _ _ _)) rfl
  | .optionalElse line cmd body elseLine els, st, st', hr, hc, h => by
    simp only [Stmt.tokens, CommandsOk.append] at hc
    obtain ⟨st₁, h₁, h⟩ := Res.bind_eq_ok h
    obtain ⟨st₂, h₂, h⟩ := Res.bind_eq_ok h
    cases h
    exact (Builds.block (commandTokens_ok hc.1.1.1.1.2)
      (body.exec_follows _ _ (begin_rights _ _ _ _) hc.1.1.1.2 h₁) rfl).trans
      (Builds.block (cmd := none) (by simp) (els.exec_follows _ _ rfl hc.1.2 h₂) rfl)
  | .genRequire line cmd cmd' body, st, st', hr, hc, h => by
    simp only [Stmt.tokens, CommandsOk.append, CommandsOk.cons] at hc
    have f := Builds.genRequire (u := false) (commandTokens_ok hc.1.1.1.2)
      (body.exec_follows _ (begin_rights st _ line _) hc.1.2)
    cases cmd' with
    | none => cases h; exact f
    | some c =>
      cases h
      exact (f.command (commandTokens_ok hc.1.1.2.2 c rfl)).congr fun b => rfl
  | .genRequireUnquoted line cmd body, st, st', hr, hc, h => by
    simp only [Stmt.tokens, CommandsOk.append, CommandsOk.cons] at hc
    cases h
    exact Builds.genRequire (commandTokens_ok hc.1.1.2)
      (body.exec_follows _ (begin_rights st _ line _) hc.1.2)
  | .require line cmd body, st, st', hr, hc, h => by
    simp only [Stmt.tokens, CommandsOk.append, CommandsOk.cons] at hc
    cases h
    exact Builds.block (commandTokens_ok hc.1.1.2)
      (body.exec_follows _ (begin_rights st _ line _) hc.1.2) rfl
  | .ifdef line _ _ args, st, st', hr, hc, h => by
    simp only [Stmt.tokens, CommandsOk.append] at hc
    obtain ⟨st₁, h₁, h₂⟩ := Res.bind_eq_ok h
    cases h₂
    exact Builds.block (cmd := none) (by simp) (args.exec_follows _ _ rfl hc.1.2 h₁) rfl
  | .ifelse line args, st, st', hr, hc, h => by
    simp only [Stmt.tokens, CommandsOk.append] at hc
    obtain ⟨st₁, h₁, h₂⟩ := Res.bind_eq_ok h
    cases h₂
    exact Builds.block (cmd := none) (by simp) (args.exec_follows _ _ rfl hc.1.2 h₁) rfl
  | .userdebugOrEng body, st, st', hr, hc, h => by
    simp only [Stmt.tokens, CommandsOk.append] at hc
    exact body.exec_follows _ _ hr hc.1.2 h
  | .tunable line _ _ args, st, st', hr, hc, h => by
    simp only [Stmt.tokens, CommandsOk.append, CommandsOk.cons] at hc
    obtain ⟨st₁, h₁, h₂⟩ := Res.bind_eq_ok h
    cases h₂
    exact Builds.block (cmd := none) (by simp) (args.exec_follows _ _ rfl hc.1.2.2 h₁) rfl
  | .boolean line cmd _ body, st, st', hr, hc, h => by
    simp only [Stmt.tokens, CommandsOk.append] at hc
    obtain ⟨st₁, h₁, h₂⟩ := Res.bind_eq_ok h
    cases h₂
    exact Builds.block (commandTokens_ok hc.1.1.1.1.2)
      (body.exec_follows _ _ (begin_rights _ _ _ _) hc.1.2 h₁) rfl
  | .booleanElse line cmd _ body els, st, st', hr, hc, h => by
    simp only [Stmt.tokens, CommandsOk.append] at hc
    obtain ⟨st₁, h₁, h⟩ := Res.bind_eq_ok h
    obtain ⟨st₂, h₂, h⟩ := Res.bind_eq_ok h
    cases h
    have f₁ := body.exec_follows _ _ (begin_rights _ _ _ _) hc.1.1.1.2 h₁
    exact Builds.block (commandTokens_ok hc.1.1.1.1.1.1.2)
      (f₁.trans (els.exec_follows _ _ f₁.rights hc.1.2 h₂)) rfl
  | .define line _ _ _, st, st', hr, _, h => by
    cases h
    exact Builds.block (inside := id) (cmd := none) (by simp) (Builds.refl rfl) rfl
theorem M4Args.exec_follows : ∀ (d : M4Args) (st st' : PState), st.loc.rights = [] →
    CommandsOk d.tokens → d.exec st = .ok st' → Builds (buildArgs d) st st'
  | .one line a, st, st', hr, hc, h => by
    obtain ⟨st₁, h₁, h₂⟩ := Res.bind_eq_ok h
    cases h₂
    exact Builds.block (cmd := none) (by simp) (a.exec_follows _ _ rfl hc h₁) rfl
  | .more as line a, st, st', hr, hc, h => by
    simp only [M4Args.tokens, CommandsOk.append, CommandsOk.cons] at hc
    obtain ⟨st₁, h₁, h⟩ := Res.bind_eq_ok h
    obtain ⟨st₂, h₂, h⟩ := Res.bind_eq_ok h
    cases h
    have f₁ := as.exec_follows _ _ hr hc.1 h₁
    exact f₁.trans (Builds.block (cmd := none) (by simp) (a.exec_follows _ _ rfl hc.2.2 h₂) rfl)
theorem M4Argument.exec_follows : ∀ (d : M4Argument) (st st' : PState), st.loc.rights = [] →
    CommandsOk d.tokens → d.exec st = .ok st' → Builds (buildArg d) st st'
  | .empty, st, st', hr, _, h => by cases h; exact Builds.refl hr
  | .emptyQuoted, st, st', hr, _, h => by cases h; exact Builds.refl hr
  | .quoted body, st, st', hr, hc, h => by
    simp only [M4Argument.tokens, CommandsOk.append, CommandsOk.cons] at hc
    exact body.exec_follows _ _ hr hc.2.1 h
  | .word _, st, st', hr, _, h => by cases h; exact Builds.refl hr
end

end Selint
