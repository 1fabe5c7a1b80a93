import Verif.Lemmas.Present
import Verif.Model.Dispatch
/-! # The checks do not look at exceptions -/

namespace Selint

open Spec

namespace Spec

/-- An enclosing node without exceptions, its own and those around it. -/
def bareFrame (f : Frame) : Frame := ⟨f.lefts.map bare, bareInfo f.info, f.rights.map bare⟩

/-- The same place in the tree without exceptions. -/
def bareLoc (l : Loc) : Loc := ⟨bare l.focus, l.lefts.map bare, l.rights.map bare, l.ups.map bareFrame⟩

@[simp] theorem bare_mk (i : NodeInfo) (cs : List Tree) : bare (.mk i cs) = .mk (bareInfo i) (cs.map bare) := by
  rw [bare, bareList_eq_map]; rfl

@[simp] theorem bare_info (t : Tree) : (bare t).info = bareInfo t.info := by cases t; simp

@[simp] theorem bare_children (t : Tree) : (bare t).children = t.children.map bare := by cases t; simp

@[simp] theorem bareInfo_data (i : NodeInfo) : (bareInfo i).data = i.data := rfl
@[simp] theorem bareInfo_flavor (i : NodeInfo) : (bareInfo i).flavor = i.flavor := rfl
@[simp] theorem bareInfo_lineno (i : NodeInfo) : (bareInfo i).lineno = i.lineno := rfl

variable (l : Loc)

@[simp] theorem bareLoc_focus : (bareLoc l).focus = bare l.focus := rfl
@[simp] theorem bareLoc_info : (bareLoc l).info = bareInfo l.info := bare_info _
@[simp] theorem bareLoc_data : (bareLoc l).data = l.data := by simp [Loc.data]
@[simp] theorem bareLoc_flavor : (bareLoc l).flavor = l.flavor := by simp [Loc.flavor]

theorem bareLoc_path : (bareLoc l).path = l.path := by
  simp [Loc.path, bareLoc, bareFrame, Function.comp_def]

theorem bareLoc_addr : (bareLoc l).addr = l.addr := by rw [Loc.addr, Loc.addr, bareLoc_path]

theorem bareLoc_firstChild : (bareLoc l).firstChild? = l.firstChild?.map bareLoc := by
  obtain ⟨⟨i, cs⟩, ls, rs, ups⟩ := l
  cases cs <;> simp [Loc.firstChild?, bareLoc, bareFrame]

theorem bareLoc_next : (bareLoc l).next? = l.next?.map bareLoc := by
  obtain ⟨t, ls, rs, ups⟩ := l
  cases rs <;> simp [Loc.next?, bareLoc]

theorem bareLoc_prev : (bareLoc l).prev? = l.prev?.map bareLoc := by
  obtain ⟨t, ls, rs, ups⟩ := l
  cases ls <;> simp [Loc.prev?, bareLoc]

theorem bareLoc_parent : (bareLoc l).parent? = l.parent?.map bareLoc := by
  obtain ⟨t, ls, rs, ups⟩ := l
  cases ups <;> simp [Loc.parent?, bareLoc, bareFrame]

theorem bareLoc_ancestors : (bareLoc l).ancestors = l.ancestors.map bareLoc := by
  fun_induction Loc.ancestors l with
  | case1 l h => rw [Loc.ancestors]; split <;> simp_all [bareLoc_parent]
  | case2 l p h ih =>
    rw [Loc.ancestors]
    split
    · simp_all [bareLoc_parent]
    · rename_i q hq
      rw [bareLoc_parent, h] at hq
      cases hq
      simp [ih]

theorem climb_bare (t : Tree) (ls rs : List Tree) (ups : List Frame) :
    Loc.climb (bare t) (ls.map bare) (rs.map bare) (ups.map bareFrame) = (Loc.climb t ls rs ups).map bareLoc := by
  induction ups generalizing t ls rs with
  | nil => rfl
  | cons f fs ih =>
    obtain ⟨fl, fi, fr⟩ := f
    cases fr with
    | nil =>
      have := ih (.mk fi (ls.reverse ++ t :: rs)) fl []
      simpa [Loc.climb, bareFrame] using this
    | cons r rs' => simp [Loc.climb, bareFrame, bareLoc]

theorem bareLoc_dfsNext : (bareLoc l).dfsNext = l.dfsNext.map bareLoc := by
  unfold Loc.dfsNext
  rw [bareLoc_firstChild, bareLoc_next]
  cases l.firstChild? with
  | some c => rfl
  | none =>
    cases l.next? with
    | some n => rfl
    | none => exact climb_bare ..

theorem bareLoc_walk : (bareLoc l).walk = l.walk.map bareLoc := by
  fun_induction Loc.walk l with
  | case1 l h => rw [Loc.walk]; split <;> simp_all [bareLoc_dfsNext]
  | case2 l n h ih =>
    rw [Loc.walk]
    split
    · simp_all [bareLoc_dfsNext]
    · rename_i q hq
      rw [bareLoc_dfsNext, h] at hq
      cases hq
      simp [ih]

theorem plug_bare (sibs : List Tree) (ups : List Frame) :
    Loc.plug (sibs.map bare) (ups.map bareFrame) = (Loc.plug sibs ups).map bare := by
  induction ups generalizing sibs with
  | nil => rfl
  | cons f fs ih =>
    have := ih (f.lefts.reverse ++ .mk f.info sibs :: f.rights)
    simpa [Loc.plug, bareFrame] using this

theorem bareLoc_unzip : (bareLoc l).unzip = l.unzip.map bare := by
  have := plug_bare l.siblings l.ups
  simpa [Loc.unzip, Loc.siblings, bareLoc] using this

/-- A place in a tree without exceptions is one of the tree. -/
theorem bareLoc_of_unzip {ts : List Tree} {l' : Loc} (h : l'.unzip = ts.map bare) :
    ∃ l : Loc, l.unzip = ts ∧ bareLoc l = l' := by
  have key : ∀ (ups : List Frame) (sibs ts : List Tree), Loc.plug sibs ups = ts.map bare →
      ∃ ups₀ sibs₀, Loc.plug sibs₀ ups₀ = ts ∧ sibs₀.map bare = sibs ∧ ups₀.map bareFrame = ups := by
    intro ups
    induction ups with
    | nil => intro sibs ts h; exact ⟨[], ts, rfl, h.symm, rfl⟩
    | cons f fs ih =>
      intro sibs ts h
      obtain ⟨ups₀, sibs₀, h1, h2, h3⟩ := ih _ _ h
      obtain ⟨a, b, rfl, h4, h5⟩ := List.map_eq_append_iff.1 h2
      obtain ⟨⟨i, cs⟩, b, rfl, h6, h7⟩ := List.map_eq_cons_iff.1 h5
      rw [bare_mk] at h6
      obtain ⟨fl, fi, fr⟩ := f
      simp only [Tree.mk.injEq] at h6 h4 h7
      obtain ⟨rfl, rfl⟩ := h6
      refine ⟨⟨a.reverse, i, b⟩ :: ups₀, cs, by simpa [Loc.plug] using h1, rfl, ?_⟩
      simp [h3, bareFrame, h7, h4]
  obtain ⟨t, ls, rs, ups⟩ := l'
  obtain ⟨ups₀, sibs₀, h1, h2, h3⟩ := key _ _ _ h
  obtain ⟨a, b, rfl, h4, h5⟩ := List.map_eq_append_iff.1 h2
  obtain ⟨t₀, b, rfl, rfl, h7⟩ := List.map_eq_cons_iff.1 h5
  simp only at h4 h7 h3
  refine ⟨⟨t₀, a.reverse, b, ups₀⟩, by simpa [Loc.unzip, Loc.siblings] using h1, ?_⟩
  simp [bareLoc, h4, h7, h3]

/-! ## The checks -/

theorem getNames_bare (i : NodeInfo) : getNamesInNode (bareInfo i) = getNamesInNode i := rfl

theorem hasRequire_bare (name : Str) (fl : DeclFlavor) : hasRequire (bareLoc l) name fl = hasRequire l name fl := by
  have e : ∀ c : Loc, requireBlockLists (bareLoc c) name fl = requireBlockLists c name fl := by
    intro c
    unfold requireBlockLists
    have h1 : isRequireBlock (bareLoc c).info = isRequireBlock c.info := by simp [isRequireBlock]
    have h2 : ∀ i : NodeInfo, declLists name fl (bareInfo i) = declLists name fl i := fun _ => rfl
    rw [h1]
    obtain ⟨⟨i, cs⟩, ls, rs, ups⟩ := c
    cases cs <;> simp [bareLoc, h2, Function.comp_def]
  fun_induction hasRequire l name fl with
  | case1 l ih1 ih2 =>
    rw [hasRequire, e]
    congr 1
    funext b
    cases b with
    | true => rfl
    | false =>
      simp only [Bool.false_eq_true, if_false]
      have hp := bareLoc_prev l
      have hq := bareLoc_parent l
      cases hl : l.prev? with
      | some p =>
        rw [hl] at hp
        split
        · rename_i q h
          rw [hp] at h; cases h
          exact ih1 p hl
        · rename_i h
          rw [hp] at h; cases h
      | none =>
        rw [hl] at hp
        split
        · rename_i q h
          rw [hp] at h; cases h
        · cases hl' : l.parent? with
          | some p =>
            rw [hl'] at hq
            split
            · rename_i q h
              rw [hq] at h; cases h
              exact ih2 p hl'
            · rename_i h
              rw [hq] at h; cases h
          | none =>
            rw [hl'] at hq
            split
            · rename_i q h
              rw [hq] at h; cases h
            · rfl

theorem explicitLoop_bare (m : Maps) (data : CheckData) (names : List Str) :
    explicitLoop m data (bareLoc l) names = explicitLoop m data l names := by
  induction names with
  | nil => rfl
  | cons n ns ih => simp only [explicitLoop, ih, hasRequire_bare]

theorem usedNames_bare : usedNames (bareLoc l) = usedNames l := by
  simp [usedNames, getNames_bare]

theorem find_bare (p : NodeInfo → Bool) (hp : ∀ i, p (bareInfo i) = p i) (ls : List Loc) :
    (ls.map bareLoc).find? (fun l => p l.info) = (ls.find? fun l => p l.info).map bareLoc := by
  rw [List.find?_map]
  congr 1
  congr 1
  funext l
  simp [hp]

theorem required_bare (cur : Option Loc) :
    namesRequiredBefore (bareLoc l) (cur.map bareLoc) = namesRequiredBefore l cur := by
  cases cur with
  | none => rfl
  | some c =>
    have h1 : ∀ x : Loc, isRequireBlock (bareLoc x).info = isRequireBlock x.info := by simp [isRequireBlock]
    have h2 : ∀ x : Loc, getNamesRequired (bareLoc x).focus = getNamesRequired x.focus := by
      intro x
      simp [getNamesRequired, List.flatMap_map, getNames_bare]
    simp only [namesRequiredBefore, Option.map_some, bareLoc_walk, List.takeWhile_map, List.filter_map, List.flatMap_map]
    simp only [Function.comp_def, bareLoc_path, h1, h2]

theorem climbToDefinition_bare (req : Option Loc) (ls : List Loc) :
    climbToDefinition (req.map bareLoc) (ls.map bareLoc) =
      (climbToDefinition req ls).map fun p => (bareLoc p.1, p.2.map bareLoc) := by
  fun_induction climbToDefinition req ls with
  | case1 => rfl
  | case2 => rfl
  | case3 req cur up rest h =>
    have h1 : isDefinition (bareLoc cur).info = true := by simpa [isDefinition] using h
    rw [List.map_cons, List.map_cons, climbToDefinition, if_pos h1]
    rfl
  | case4 req cur up rest h ih =>
    have h1 : ¬isDefinition (bareLoc cur).info = true := by simpa [isDefinition] using h
    rw [List.map_cons, List.map_cons, climbToDefinition, if_neg h1, ← List.map_cons, ← ih]
    congr 1
    have h2 : isRequireBlock (bareLoc cur).info = isRequireBlock cur.info := by simp [isRequireBlock]
    rw [h2]
    split <;> simp_all

theorem climbWithin_bare (depth : Nat) :
    climbWithin (bareLoc l) depth = (bareLoc (climbWithin l depth).1, (climbWithin l depth).2) := by
  induction depth generalizing l with
  | zero => rfl
  | succ d ih =>
    unfold climbWithin
    rw [bareLoc_parent]
    cases l.parent? with
    | none => rfl
    | some p =>
      simp only [Option.map_some, bareLoc_next, Option.isSome_map]
      split
      · rfl
      · exact ih p

theorem usesStep_bare (depth : Nat) :
    usesStep (bareLoc l) depth = (usesStep l depth).map fun p => (bareLoc p.1, p.2) := by
  unfold usesStep
  rw [bareLoc_firstChild, bareLoc_next]
  cases l.firstChild? with
  | some c => rfl
  | none =>
    cases l.next? with
    | some n => rfl
    | none => simp [climbWithin_bare, bareLoc_next, Function.comp_def]

theorem namesUsed_bare (depth : Nat) : namesUsed (bareLoc l) depth = namesUsed l depth := by
  fun_induction namesUsed l depth with
  | case1 l d ih =>
    rw [namesUsed, bareLoc_info, getNames_bare]
    congr 1
    have hu := usesStep_bare l d
    cases h : usesStep l d with
    | none =>
      rw [h] at hu
      split
      · rfl
      · rename_i h'; rw [hu] at h'; cases h'
    | some p =>
      rw [h] at hu
      split
      · rename_i h'; rw [hu] at h'; cases h'
      · rename_i n e h'
        rw [hu] at h'; cases h'
        exact ih p.1 p.2 h

theorem unusedCheck_bare (flavor : Str) (req : Loc) :
    unusedCheck flavor (bareLoc l) (bareLoc req) = unusedCheck flavor l req := by
  unfold unusedCheck
  rw [bareLoc_info, getNames_bare, bareLoc_next]
  cases req.next? with
  | none => rfl
  | some n => simp [namesUsed_bare]

theorem isIfelseArgument_bare (ls : List Loc) :
    isIfelseArgument (ls.map bareLoc) = (isIfelseArgument ls).map bareLoc := by
  fun_induction isIfelseArgument ls with
  | case1 cur parent rest h =>
    rw [List.map_cons, List.map_cons, isIfelseArgument, if_pos (by simpa using h)]; rfl
  | case2 cur parent rest h ih =>
    rw [List.map_cons, List.map_cons, isIfelseArgument, if_neg (by simpa using h), ← List.map_cons, ih]
  | case3 ls h =>
    match ls with
    | [] => rfl
    | [a] => rfl
    | a :: b :: c => exact absurd rfl (h a b c)

end Spec

/-- Every check but C-001 answers as in the tree without exceptions. -/
theorem CheckFn.run_bare {fn : CheckFn} (h : fn ≠ .teOrder) (m : Maps) (data : CheckData) (l : Loc) (s : Statics) :
    fn.run m data (bareLoc l) s = fn.run m data l s := by
  have hr : ∀ i, isRequireBlock (bareInfo i) = isRequireBlock i := fun _ => rfl
  have hd : ∀ i, isDefinition (bareInfo i) = isDefinition i := fun _ => rfl
  have hs : ∀ i, dataStr (bareInfo i) = dataStr i := fun _ => rfl
  cases fn
  case teOrder => exact absurd rfl h
  case interfaceDefinitionsHaveComment =>
    simp only [CheckFn.run, checkInterfaceDefinitionsHaveComment, bareLoc_info, hd, hs, bareLoc_prev]
    cases l.prev? <;> simp
  case unorderedDeclarationInRequire =>
    simp only [CheckFn.run, checkUnorderedDeclarationInRequire, bareLoc_info, hr, bareLoc_focus, bare_children]
    have e : ∀ (ts : List Tree) (p : Option DeclData), requireOrderLoop data.config p (ts.map bare) =
        requireOrderLoop data.config p ts := by
      intro ts
      induction ts with
      | nil => intro p; rfl
      | cons t ts ih => intro p; simp [requireOrderLoop, ih]
    cases l.focus.children with
    | nil => rfl
    | cons t ts =>
      cases ts with
      | nil => simp
      | cons t' ts =>
        have := e (t' :: ts) none
        rw [List.map_cons] at this
        simp only [List.map_cons, bare_info, bareInfo_flavor, this]
  case requireBlock =>
    simp only [CheckFn.run, checkRequireBlock, bareLoc_focus, bare_children]
    have e : ∀ ts : List Tree, requireLoop (ts.map bare) = requireLoop ts := by
      intro ts
      induction ts with
      | nil => rfl
      | cons t ts ih => simp [requireLoop, ih]
    rw [e]
  case ifCallsTemplate =>
    simp only [CheckFn.run, checkIfCallsTemplate, bareLoc_ancestors, find_bare isDefinition hd, bareLoc_data]
    cases l.ancestors.find? fun p => isDefinition p.info <;> simp [hs]
  case declInIf =>
    simp only [CheckFn.run, checkDeclInIf, bareLoc_ancestors, bareLoc_data]
    have e : ∀ ls : List Loc, declInIfLoop (ls.map bareLoc) = declInIfLoop ls := by
      intro ls
      induction ls with
      | nil => rfl
      | cons x ls ih => simp [declInIfLoop, ih, hd, hr]
    rw [e]
  case noExplicitDeclaration =>
    simp only [CheckFn.run, checkNoExplicitDeclaration, usedNames_bare, explicitLoop_bare]
  case nameUsedButNotRequiredInIf =>
    simp only [CheckFn.run, checkNameUsedButNotRequiredInIf, usedNames_bare, bareLoc_info, getNames_bare, bareLoc_ancestors,
      ← List.map_cons, find_bare isDefinition hd]
    cases (l :: l.ancestors).find? fun p => isDefinition p.info <;> simp [bareLoc_firstChild, required_bare]
  case nameRequiredButNotUsedInIf =>
    simp only [CheckFn.run, checkNameRequiredButNotUsedInIf, bareLoc_data, bareLoc_ancestors, ← List.map_cons]
    rw [show (none : Option Loc) = (none : Option Loc).map bareLoc from rfl, climbToDefinition_bare]
    simp only [Option.map_none]
    congr 1
    split
    · rfl
    · split
      · rename_i d hd'
        split
        · rfl
        · rename_i fl hfl
          cases climbToDefinition none (l :: l.ancestors) with
          | none => rfl
          | some p =>
            obtain ⟨d, req⟩ := p
            cases req with
            | none => simp
            | some r =>
              simp only [Option.map_some, bareLoc_info, hd, hs, bareLoc_flavor]
              cases isDefinition d.info <;> simp [unusedCheck_bare]
      · rfl
  case moduleIfCallInOptional =>
    simp only [CheckFn.run, checkModuleIfCallInOptional, bareLoc_data, bareLoc_ancestors, List.any_map, Function.comp_def,
      bareLoc_flavor]
  case requiredDeclarationOwn =>
    have e : (bareLoc l).isInRequire = l.isInRequire := by
      simp [Loc.isInRequire, bareLoc, bareFrame, List.any_map, Function.comp_def]
    simp only [CheckFn.run, checkRequiredDeclarationOwn, bareLoc_data, e]
  case emptyBlock =>
    simp [CheckFn.run, checkEmptyBlock, List.all_map, Function.comp_def]
  case strayWord =>
    have e : isComparisonArgument (bareLoc l) = isComparisonArgument l := by
      unfold isComparisonArgument
      rw [bareLoc_ancestors, ← List.map_cons, isIfelseArgument_bare]
      cases isIfelseArgument (l :: l.ancestors) with
      | none => rfl
      | some a =>
        have : (bareLoc a).lefts.length = a.lefts.length := by simp [bareLoc]
        simp [bareLoc_next, this]
    simp only [CheckFn.run, checkStrayWord, bareLoc_data, e]
  all_goals simp only [CheckFn.run, checkUnorderedPerms, checkNoSelf, checkBareModuleStatement, checkGenContextNoRange,
    checkUnquotedGenRequireBlock, checkPermMacroClassMismatch, checkFileContextRegex, checkEmptyIfCallArg,
    checkSpaceIfCallArg, checkRiskyAllowPerm, checkModuleFileNameMismatch, checkUnknownInterfaceCall,
    checkFileContextErrorNodes, checkFileContextUsers, checkFileContextRoles, checkFileContextTypesExist,
    checkDeclarationInterfaceNameclash, checkUnknownPermission, checkUnknownClass, checkPermMacroAvailable,
    checkFileContextTypesInMod, fcTypesNotified, setupForFcCheck, bareLoc_data, bareLoc_flavor]

end Selint
