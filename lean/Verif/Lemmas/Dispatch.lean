import Verif.Model.Dispatch
/-! # What results the checks return -/

namespace Selint

/-- The result carries this id, or the one of internal errors. -/
def HasId (sev : Char) (num : Nat) (r : CheckResult) : Prop :=
  (r.severity = sev ∧ r.checkId = num) ∨ (r.severity = 'F' ∧ r.checkId = 2)

/-- All results of a check carry this id. -/
def Labels (sev : Char) (num : Nat) (o : CheckOut) : Prop :=
  ∀ r, o = .ok (some r) → HasId sev num r

theorem labels_none {sev : Char} {num : Nat} : Labels sev num noResult := by
  intro r h; cases h
theorem labels_ub {sev : Char} {num : Nat} : Labels sev num .ub := by
  intro r h; cases h
theorem labels_internal {sev : Char} {num : Nat} {s : Str} : Labels sev num (internal s) := by
  intro r h; cases h; exact .inr ⟨rfl, rfl⟩
theorem labels_result {sev : Char} {num : Nat} {s : Str} : Labels sev num (result sev num s) := by
  intro r h; cases h; exact .inl ⟨rfl, rfl⟩
theorem labels_bind {α : Type} {sev : Char} {num : Nat} {x : Res α} {f : α → CheckOut}
    (h : ∀ a, Labels sev num (f a)) : Labels sev num (x >>= f) := by
  cases x with
  | ub => exact labels_ub
  | ok a => exact h a
theorem labels_ite {c : Prop} [Decidable c] {sev : Char} {num : Nat} {a b : CheckOut}
    (ha : Labels sev num a) (hb : Labels sev num b) : Labels sev num (if c then a else b) := by
  split <;> assumption

/-- Finish a goal `Labels …` for a check without loops. -/
macro "labels" : tactic => `(tactic|
  repeat' (first
    | exact labels_none | exact labels_ub | exact labels_internal | exact labels_result
    | apply labels_ite | (apply labels_bind; intro _) | assumption | split))

theorem labels_permsLoop (fl : Str) (p : Option Str) (l : List Str) : Labels 'C' 5 (permsLoop fl p l) := by
  fun_induction permsLoop fl p l <;> labels
theorem labels_requireLoop (l : List Tree) : Labels 'S' 1 (requireLoop l) := by
  fun_induction requireLoop l <;> labels
theorem labels_mismatchLoop (c : Str) (cs l : List Str) : Labels 'S' 9 (mismatchLoop c cs l) := by
  fun_induction mismatchLoop c cs l <;> labels
theorem labels_explicitLoop (m : Maps) (data : CheckData) (node : Loc) (l : List Str) :
    Labels 'W' 1 (explicitLoop m data node l) := by
  induction l with
  | nil => unfold explicitLoop; labels
  | cons _ _ ih => unfold explicitLoop; labels
theorem labels_spaceLoop (m : Maps) (c : Str) (p : Option Str) (n : Nat) (l : List (Str × Bool)) :
    Labels 'W' 7 (spaceLoop m c p n l) := by
  fun_induction spaceLoop m c p n l <;> labels
theorem labels_riskyLoop (l : List Str) : Labels 'W' 8 (riskyLoop l) := by
  fun_induction riskyLoop l <;> labels
theorem labels_unknownPermLoop (m : Maps) (l : List Str) : Labels 'E' 7 (unknownPermLoop m l) := by
  fun_induction unknownPermLoop m l <;> labels
theorem labels_unknownClassLoop (m : Maps) (l : List Str) : Labels 'E' 8 (unknownClassLoop m l) := by
  fun_induction unknownClassLoop m l <;> labels
theorem labels_requireOrderLoop (c : ConfigCheckData) (p : Option DeclData) (l : List Tree) :
    Labels 'C' 6 (requireOrderLoop c p l) := by
  fun_induction requireOrderLoop c p l <;> labels
theorem labels_notRequiredLoop (m : Maps) (r l : List Str) : Labels 'W' 2 (notRequiredLoop m r l) := by
  fun_induction notRequiredLoop m r l <;> labels
theorem labels_unusedLoop (f : Str) (r l : List Str) : Labels 'W' 3 (unusedLoop f r l) := by
  fun_induction unusedLoop f r l <;> labels

theorem labels_setup {sev : Char} {num : Nat} {node : Loc} {k : FcEntry → SelContext → Option CheckResult}
    (h : ∀ e c r, k e c = some r → HasId sev num r) (r : CheckResult) (hr : setupForFcCheck node k = some r) :
    HasId sev num r := by
  unfold setupForFcCheck at hr
  split at hr
  · split at hr
    · cases hr
    · exact h _ _ _ hr
  · cases hr; exact .inr ⟨rfl, rfl⟩

theorem labels_stateless {sev : Char} {num : Nat} {s s' : Statics} {o : CheckOut} {r : CheckResult}
    (ho : Labels sev num o) (h : stateless s o = .ok (s', some r)) : HasId sev num r := by
  unfold stateless at h
  cases o with
  | ub => cases h
  | ok x => cases h; exact ho r rfl

theorem labels_teOrder {m : Maps} {data : CheckData} {node : Loc} {st st' : OrderState} {r : CheckResult}
    (h : checkTeOrder m data node st = .ok (st', some r)) : HasId 'C' 1 r := by
  unfold checkTeOrder at h
  split at h
  · cases h
  · split at h
    · cases hp : prepareOrderingMetadata m data node with
      | ub => rw [hp] at h; cases h
      | ok o =>
        rw [hp] at h
        cases o with
        | none => cases h; exact .inr ⟨rfl, rfl⟩
        | some o =>
          simp only [Res.bind_ok] at h
          cases hc : calcLis (compareNodes m o.sections o.modName data.config.orderConf) o.nodes.length
              (orderedNodes node) with
          | ub => rw [hc] at h; cases h
          | ok _ => rw [hc] at h; cases h
    · split at h
      · cases h
      · split at h
        · cases h; exact .inr ⟨rfl, rfl⟩
        · rename_i o _
          split at h
          · cases h; exact .inr ⟨rfl, rfl⟩
          · rename_i i _
            cases hg : arrGet o.nodes (i : Int) with
            | ub => rw [hg] at h; cases h
            | ok n =>
              rw [hg] at h
              simp only [Res.bind_ok] at h
              split at h
              · cases h
              · cases hr : getOrderingReason m data.config.orderConf o i with
                | ub => rw [hr] at h; cases h
                | ok x =>
                  rw [hr] at h
                  cases x with
                  | none => cases h; exact .inr ⟨rfl, rfl⟩
                  | some x => cases h; exact .inl ⟨rfl, rfl⟩

theorem labels_permMacroAvailable {m : Maps} {node : Loc} {st st' : PmState} {r : CheckResult}
    (h : checkPermMacroAvailable m node st = .ok (st', some r)) : HasId 'S' 10 r := by
  unfold checkPermMacroAvailable at h
  split at h
  · split at h
    · cases h
    · split at h
      · cases h
      · split at h
        · cases h
        · rename_i d _ _ _ c _ _ _
          cases hp : permmacroCheck m st c d.perms with
          | ub => rw [hp] at h; cases h
          | ok x =>
            obtain ⟨s, x⟩ := x
            rw [hp] at h
            cases x with
            | none => cases h
            | some x => cases h; exact .inl ⟨rfl, rfl⟩
  · cases h

/-- The id of a check. -/
def fnId : CheckFn → Char × Nat
  | .teOrder => ('C', 1) | .interfaceDefinitionsHaveComment => ('C', 4) | .unorderedPerms => ('C', 5)
  | .unorderedDeclarationInRequire => ('C', 6) | .noSelf => ('C', 7)
  | .requireBlock => ('S', 1) | .fileContextTypesInMod => ('S', 2) | .uselessSemicolon => ('S', 3)
  | .ifCallsTemplate => ('S', 4) | .declInIf => ('S', 5) | .bareModuleStatement => ('S', 6)
  | .genContextNoRange => ('S', 7) | .unquotedGenRequireBlock => ('S', 8)
  | .permMacroClassMismatch => ('S', 9) | .permMacroAvailable => ('S', 10)
  | .noExplicitDeclaration => ('W', 1) | .nameUsedButNotRequiredInIf => ('W', 2)
  | .nameRequiredButNotUsedInIf => ('W', 3) | .fileContextRegex => ('W', 4)
  | .moduleIfCallInOptional => ('W', 5) | .emptyIfCallArg => ('W', 6) | .spaceIfCallArg => ('W', 7)
  | .riskyAllowPerm => ('W', 8) | .moduleFileNameMismatch => ('W', 9) | .unknownInterfaceCall => ('W', 10)
  | .requiredDeclarationOwn => ('W', 11) | .fileContextErrorNodes => ('E', 2) | .fileContextUsers => ('E', 3)
  | .fileContextRoles => ('E', 4) | .fileContextTypesExist => ('E', 5)
  | .declarationInterfaceNameclash => ('E', 6) | .unknownPermission => ('E', 7) | .unknownClass => ('E', 8)
  | .emptyBlock => ('E', 9) | .strayWord => ('E', 10)

/-- Finish a goal about a check on file contexts. -/
macro "fclabels" h:ident : tactic => `(tactic|
  (repeat' split at $h:ident) <;> cases $h:ident <;> exact .inl ⟨rfl, rfl⟩)

theorem CheckFn.run_hasId {m : Maps} {data : CheckData} {node : Loc} {s s' : Statics} {fn : CheckFn}
    {r : CheckResult} (h : fn.run m data node s = .ok (s', some r)) : HasId (fnId fn).1 (fnId fn).2 r := by
  cases fn
  case teOrder =>
    simp only [CheckFn.run] at h
    cases ho : checkTeOrder m data node s.order with
    | ub => rw [ho] at h; cases h
    | ok x => obtain ⟨o, x⟩ := x; rw [ho] at h; cases h; exact labels_teOrder ho
  case permMacroAvailable =>
    simp only [CheckFn.run] at h
    cases ho : checkPermMacroAvailable m node s.pm with
    | ub => rw [ho] at h; cases h
    | ok x => obtain ⟨o, x⟩ := x; rw [ho] at h; cases h; exact labels_permMacroAvailable ho
  case fileContextTypesInMod =>
    simp only [CheckFn.run, Res.ok.injEq, Prod.mk.injEq] at h
    refine labels_setup (fun e c r h => ?_) _ h.2
    simp only [fcTypeInMod] at h
    fclabels h
  case genContextNoRange =>
    refine labels_stateless ?_ h
    intro r h
    refine labels_setup (fun e c r h => ?_) _ (Res.ok.inj h)
    fclabels h
  case fileContextRegex =>
    refine labels_stateless ?_ h
    intro r h
    refine labels_setup (fun e c r h => ?_) _ (Res.ok.inj h)
    fclabels h
  case fileContextErrorNodes =>
    refine labels_stateless ?_ h
    intro r h
    have := Res.ok.inj h
    unfold checkFileContextErrorNodes at this
    fclabels this
  case fileContextUsers =>
    refine labels_stateless ?_ h
    intro r h
    refine labels_setup (fun e c r h => ?_) _ (Res.ok.inj h)
    fclabels h
  case fileContextRoles =>
    refine labels_stateless ?_ h
    intro r h
    refine labels_setup (fun e c r h => ?_) _ (Res.ok.inj h)
    fclabels h
  case fileContextTypesExist =>
    refine labels_stateless ?_ h
    intro r h
    refine labels_setup (fun e c r h => ?_) _ (Res.ok.inj h)
    fclabels h
  case interfaceDefinitionsHaveComment =>
    refine labels_stateless ?_ h
    unfold checkInterfaceDefinitionsHaveComment; labels
  case unorderedPerms =>
    refine labels_stateless ?_ h
    have := labels_permsLoop
    unfold checkUnorderedPerms; labels <;> apply this
  case unorderedDeclarationInRequire =>
    refine labels_stateless ?_ h
    unfold checkUnorderedDeclarationInRequire; labels; apply labels_requireOrderLoop
  case noSelf =>
    refine labels_stateless ?_ h
    unfold checkNoSelf noSelfBody; labels
  case requireBlock =>
    refine labels_stateless ?_ h
    unfold checkRequireBlock; labels; apply labels_requireLoop
  case uselessSemicolon => exact labels_stateless labels_result h
  case ifCallsTemplate =>
    refine labels_stateless ?_ h
    unfold checkIfCallsTemplate; labels
  case declInIf =>
    refine labels_stateless ?_ h
    unfold checkDeclInIf; labels
  case bareModuleStatement =>
    refine labels_stateless ?_ h
    unfold checkBareModuleStatement; labels
  case unquotedGenRequireBlock =>
    refine labels_stateless ?_ h
    unfold checkUnquotedGenRequireBlock; labels
  case permMacroClassMismatch =>
    refine labels_stateless ?_ h
    unfold checkPermMacroClassMismatch; labels; apply labels_mismatchLoop
  case noExplicitDeclaration =>
    refine labels_stateless ?_ h
    unfold checkNoExplicitDeclaration; labels; apply labels_explicitLoop
  case nameUsedButNotRequiredInIf =>
    refine labels_stateless ?_ h
    unfold checkNameUsedButNotRequiredInIf; labels; apply labels_notRequiredLoop
  case nameRequiredButNotUsedInIf =>
    refine labels_stateless ?_ h
    unfold checkNameRequiredButNotUsedInIf unusedCheck; labels <;> apply labels_unusedLoop
  case moduleIfCallInOptional =>
    refine labels_stateless ?_ h
    unfold checkModuleIfCallInOptional; labels
  case emptyIfCallArg =>
    refine labels_stateless ?_ h
    unfold checkEmptyIfCallArg; labels
  case spaceIfCallArg =>
    refine labels_stateless ?_ h
    unfold checkSpaceIfCallArg; labels; apply labels_spaceLoop
  case riskyAllowPerm =>
    refine labels_stateless ?_ h
    unfold checkRiskyAllowPerm; labels; apply labels_riskyLoop
  case moduleFileNameMismatch =>
    refine labels_stateless ?_ h
    unfold checkModuleFileNameMismatch; labels
  case unknownInterfaceCall =>
    refine labels_stateless ?_ h
    unfold checkUnknownInterfaceCall; labels
  case requiredDeclarationOwn =>
    refine labels_stateless ?_ h
    unfold checkRequiredDeclarationOwn; labels
  case declarationInterfaceNameclash =>
    refine labels_stateless ?_ h
    unfold checkDeclarationInterfaceNameclash; labels
  case unknownPermission =>
    refine labels_stateless ?_ h
    unfold checkUnknownPermission; labels; apply labels_unknownPermLoop
  case unknownClass =>
    refine labels_stateless ?_ h
    unfold checkUnknownClass; labels <;> apply labels_unknownClassLoop
  case emptyBlock =>
    refine labels_stateless ?_ h
    unfold checkEmptyBlock; labels
  case strayWord =>
    refine labels_stateless ?_ h
    unfold checkStrayWord; labels

end Selint
