import Verif.Lemmas.ParseNodes
/-! # Every run of the actions is a sequence of the tree operations -/

namespace Selint

/-- The tree of `b` results from that of `a` by tree operations. -/
def Grown (a b : PState) : Prop := ∃ ops : List TreeOp, b.loc = ops.foldl Loc.grow a.loc

namespace Grown

theorem refl (a : PState) : Grown a a := ⟨[], rfl⟩

theorem trans {a b c : PState} (h : Grown a b) (k : Grown b c) : Grown a c := by
  obtain ⟨o, h⟩ := h
  obtain ⟨p, k⟩ := k
  exact ⟨o ++ p, by rw [List.foldl_append, ← h, k]⟩

theorem grow {a b : PState} (op : TreeOp) (h : Grown a b) : Grown a (b.grow op) :=
  h.trans ⟨[op], rfl⟩

theorem of_loc {a b : PState} (h : b.loc = a.loc) : Grown a b := ⟨[], h⟩

theorem late {a b : PState} (cmd : Option Str) (h : Grown a b) : Grown a (b.lateCommand cmd) := by
  cases cmd with
  | none => exact h
  | some c => exact h.grow _

theorem parent {a b : PState} (cmd : Option Str) (h : Grown a b) : Grown a (b.parentCommand cmd) := by
  cases cmd with
  | none => exact h
  | some c => exact h.grow _

theorem declaration (st : PState) (fl : DeclFlavor) (n : Str) (as : List Str) (line : Nat) :
    Grown st (st.insertDeclaration fl n as line) := by
  obtain ⟨m, hm⟩ := declareName_loc st fl n
  refine grow _ (of_loc ?_)
  rw [hm]

theorem declarations (fl : DeclFlavor) (line : Nat) (ns : List Str) : ∀ st : PState,
    Grown st (ns.foldl (fun st n => st.insertDeclaration fl n [] line) st) := by
  induction ns with
  | nil => exact fun st => refl st
  | cons n ns ih => exact fun st => (declaration st fl n [] line).trans (ih _)

theorem aliases (fl : DeclFlavor) (line : Nat) (as : List Str) : ∀ st : PState,
    Grown st (st.insertAliases as fl line) := by
  induction as with
  | nil => exact fun st => refl st
  | cons a as ih =>
    intro st
    have h : Grown st (st.insertAlias fl line a) := ⟨[.child _], (insertAlias_loc st fl line a).2.2⟩
    exact h.trans (ih _)

theorem attr (st : PState) (d : AttrData) (line : Nat) : Grown st (st.insertAttribute d line) := by
  have h : Grown st (st.statement (.attr d) line) := grow _ (refl st)
  unfold PState.insertAttribute
  dsimp only
  repeat' split
  · exact h.trans (of_loc rfl)
  · exact h
  · exact h

theorem simple {s : Simple} {line : Nat} {st st' : PState} (h : s.exec line st = .ok st') :
    Grown st st' := by
  cases s <;> simp only [Simple.exec] at h
  case decl d =>
    cases h
    cases d with
    | typeAlias n l => exact (declaration _ _ _ _ _).trans (aliases _ _ _ _)
    | typeAliasAttrs n l a => exact (declaration _ _ _ _ _).trans (aliases _ _ _ _)
    | _ => exact declaration _ _ _ _ _
  case typeAlias n l => cases h; exact ((refl st).grow _).trans (aliases _ _ _ _)
  case call n a =>
    have key : ∀ c : IfCallData, st.insertInterfaceCall c line = .ok st' → Grown st st' := by
      intro c h
      unfold PState.insertInterfaceCall at h
      split at h
      · cases h
      · cases h
      · dsimp only at h
        repeat' split at h
        all_goals cases h
        · exact grow _ (of_loc rfl)
        · exact grow _ (of_loc rfl)
        · exact grow _ (of_loc rfl)
        · exact of_loc rfl
    cases a with
    | none => exact key _ h
    | some a => exact key _ h
  all_goals
    cases h
    first
    | exact grow _ (refl st)
    | (simp only [PState.insertAvRule, PState.insertRoleTypes, PState.insertTypeTransition]
       exact grow _ (of_loc (by repeat' split
                                all_goals rfl)))
    | exact attr _ _ _

mutual
theorem reqLines : ∀ (d : ReqLines) (st : PState), Grown st (d.exec st)
  | .one l, st => reqLine l st
  | .more ls l, st => (reqLines ls st).trans (reqLine l _)
theorem reqLine : ∀ (d : ReqLine) (st : PState), Grown st (d.exec st)
  | .bare s, st => reqStmt s st
  | .withCommand s _, st => (reqStmt s st).grow _
theorem reqStmt : ∀ (d : ReqStmt) (st : PState), Grown st (d.exec st)
  | .decls line fl _ _ names, st => declarations fl line names.value st
  | .cls _ _ _, st => declaration st _ _ _ _
  | .ifdef _ _ _ _ body, st => (((refl st).grow _).trans (reqLines body _)).grow _
  | .comment, st => refl st
end

mutual
theorem lines : ∀ (d : Lines) (st st' : PState), d.exec st = .ok st' → Grown st st'
  | .one l, st, st', h => line l st st' h
  | .more ls l, st, st', h => by
    obtain ⟨st₁, h₁, h₂⟩ := Res.bind_eq_ok h
    exact (lines ls _ _ h₁).trans (line l _ _ h₂)
theorem line : ∀ (d : Line) (st st' : PState), d.exec st = .ok st' → Grown st st'
  | .bare s, st, st', h => stmt s st st' h
  | .withCommand s _, st, st', h => by
    obtain ⟨st₁, h₁, h₂⟩ := Res.bind_eq_ok h
    cases h₂
    exact (stmt s _ _ h₁).grow _
theorem stmt : ∀ (d : Stmt) (st st' : PState), d.exec st = .ok st' → Grown st st'
  | .silent _, st, st', h => by cases h; exact refl st
  | .simple _ s, st, st', h => simple h
  | .optional _ cmd body, st, st', h => by
    obtain ⟨st₁, h₁, h₂⟩ := Res.bind_eq_ok h
    cases h₂
    exact ((((refl st).grow _).parent cmd).trans (lines body _ _ h₁)).grow _
  | .optionalEmpty _ cmd, st, st', h => by
    cases h
    exact (((refl st).grow _).parent cmd).grow _
  | .optionalElse _ cmd body _ els, st, st', h => by
    obtain ⟨st₁, h₁, h⟩ := Res.bind_eq_ok h
    obtain ⟨st₂, h₂, h⟩ := Res.bind_eq_ok h
    cases h
    exact ((((((((refl st).grow _).parent cmd).trans (lines body _ _ h₁)).grow _).grow _).trans
      (lines els _ _ h₂)).grow _)
  | .genRequire _ cmd cmd' body, st, st', h => by
    cases h
    exact Grown.late cmd' ((((((refl st).grow _).parent cmd).trans (reqLines body _)).grow _).grow _)
  | .genRequireUnquoted _ cmd body, st, st', h => by
    cases h
    exact (((((refl st).grow _).parent cmd).trans (reqLines body _)).grow _).grow _
  | .require _ cmd body, st, st', h => by
    cases h
    exact ((((refl st).grow _).parent cmd).trans (reqLines body _)).grow _
  | .ifdef _ _ _ as, st, st', h => by
    obtain ⟨st₁, h₁, h₂⟩ := Res.bind_eq_ok h
    cases h₂
    exact (((refl st).grow _).trans (args as _ _ h₁)).grow _
  | .ifelse _ as, st, st', h => by
    obtain ⟨st₁, h₁, h₂⟩ := Res.bind_eq_ok h
    cases h₂
    exact (((refl st).grow _).trans (args as _ _ h₁)).grow _
  | .userdebugOrEng body, st, st', h => lines body st st' h
  | .tunable _ _ _ as, st, st', h => by
    obtain ⟨st₁, h₁, h₂⟩ := Res.bind_eq_ok h
    cases h₂
    exact (((refl st).grow _).trans (args as _ _ h₁)).grow _
  | .boolean _ cmd _ body, st, st', h => by
    obtain ⟨st₁, h₁, h₂⟩ := Res.bind_eq_ok h
    cases h₂
    exact ((((refl st).grow _).parent cmd).trans (lines body _ _ h₁)).grow _
  | .booleanElse _ cmd _ body els, st, st', h => by
    obtain ⟨st₁, h₁, h⟩ := Res.bind_eq_ok h
    obtain ⟨st₂, h₂, h⟩ := Res.bind_eq_ok h
    cases h
    exact (((((refl st).grow _).parent cmd).trans (lines body _ _ h₁)).trans (lines els _ _ h₂)).grow _
  | .define _ _ _ _, st, st', h => by cases h; exact ((refl st).grow _).grow _
theorem args : ∀ (d : M4Args) (st st' : PState), d.exec st = .ok st' → Grown st st'
  | .one _ a, st, st', h => by
    obtain ⟨st₁, h₁, h₂⟩ := Res.bind_eq_ok h
    cases h₂
    exact (((refl st).grow _).trans (arg a _ _ h₁)).grow _
  | .more as _ a, st, st', h => by
    obtain ⟨st₁, h₁, h⟩ := Res.bind_eq_ok h
    obtain ⟨st₂, h₂, h⟩ := Res.bind_eq_ok h
    cases h
    exact ((((args as _ _ h₁).grow _).trans (arg a _ _ h₂)).grow _)
theorem arg : ∀ (d : M4Argument) (st st' : PState), d.exec st = .ok st' → Grown st st'
  | .empty, st, st', h => by cases h; exact refl st
  | .emptyQuoted, st, st', h => by cases h; exact refl st
  | .quoted body, st, st', h => lines body st st' h
  | .word _, st, st', h => by cases h; exact refl st
end

theorem comments (cs : List Nat) : ∀ st : PState, Grown st (execComments cs st) := by
  induction cs with
  | nil => exact fun st => refl st
  | cons c cs ih => exact fun st => ((refl st).grow (.statement _)).trans (ih _)

theorem endInterface {a b : PState} (h : Grown a b) : Grown a b.endInterfaceDef := by
  unfold PState.endInterfaceDef
  repeat' split
  · exact h
  · exact h.grow _
  · exact h.grow _

theorem ifDef {d : IfDef} {st st' : PState} (h : d.exec st = .ok st') : Grown st st' := by
  obtain ⟨st₁, h₁, h⟩ := Res.bind_eq_ok h
  cases h
  refine late _ (endInterface ?_)
  refine Grown.trans (b := st.beginInterfaceDef d.isTemplate d.name d.line) ?_ ?_
  · exact grow _ (of_loc rfl)
  · cases hb : d.body with
    | none => rw [hb] at h₁; cases h₁; exact refl _
    | some b => rw [hb] at h₁; exact lines b _ _ h₁

theorem ifLines (ls : List IfLine) : ∀ st st' : PState, execIfLines ls st = .ok st' → Grown st st' := by
  induction ls with
  | nil => intro st st' h; cases h; exact refl st
  | cons l ls ih =>
    intro st st' h
    obtain ⟨st₁, h₁, h⟩ := Res.bind_eq_ok h
    refine Grown.trans ?_ (ih _ _ h)
    cases l with
    | defn d => exact ifDef h₁
    | comment n => cases h₁; exact (refl st).grow _

theorem file {f : SourceFile} {expected : PlainFlavor} {mod : Str} {m : Maps} {st : PState}
    (h : f.exec expected mod m = .ok (some st)) : Grown (PState.init expected mod m) st := by
  unfold SourceFile.exec at h
  cases f with
  | empty => cases h; exact (refl _).grow _
  | te cs hd b =>
    dsimp only at h
    split at h
    · cases h
    · obtain ⟨st₁, h₁, h⟩ := Res.bind_eq_ok h
      cases h
      exact ((comments cs _).grow _).trans (lines b _ _ h₁)
  | iface cs d ls =>
    dsimp only at h
    split at h
    · cases h
    · obtain ⟨st₁, h₁, h⟩ := Res.bind_eq_ok h
      obtain ⟨st₂, h₂, h⟩ := Res.bind_eq_ok h
      cases h
      exact ((comments cs _).trans (ifDef h₁)).trans (ifLines ls _ _ h₂)
  | spt cs d ls =>
    dsimp only at h
    split at h
    · cases h
    · cases h
      exact (comments cs _).trans (of_loc rfl)
  | av cs d ls =>
    dsimp only at h
    split at h
    · cases h
    · cases h
      exact (comments cs _).trans (of_loc rfl)
  | comments c cs => cases h; exact comments (c :: cs) _

end Grown

end Selint
