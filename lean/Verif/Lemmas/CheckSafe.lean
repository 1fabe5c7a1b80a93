import Verif.Lemmas.Dispatch
import Verif.Lemmas.Loc
import Verif.Lemmas.ParseSound
import Verif.Spec.Selection
/-! # The checks without static state have defined behaviour on parsed nodes -/

namespace Selint
open Spec

/-! ## Nodes of a well-shaped forest -/

mutual
theorem treeOk_locs (t : Tree) (ls rs : List Tree) (ups : List Frame) (h : TreeOk t) :
    ∀ l ∈ t.locs ls rs ups, TreeOk l.focus := by
  match t with
  | .mk i cs =>
    intro l hl
    simp only [Tree.locs, List.mem_cons] at hl
    rcases hl with rfl | hl
    · exact h
    · exact forestOk_locs [] cs _ h.2 l hl
theorem forestOk_locs (ls ts : List Tree) (ups : List Frame) (h : ForestOk ts) :
    ∀ l ∈ Tree.locsList ls ts ups, TreeOk l.focus := by
  match ts with
  | [] => simp [Tree.locsList]
  | t :: ts =>
    intro l hl
    simp only [Tree.locsList, List.mem_append] at hl
    rcases hl with hl | hl
    · exact treeOk_locs t ls ts ups h.1 l hl
    · exact forestOk_locs (t :: ls) ts ups h.2 l hl
end

/-- The node belongs to a tree that is as the checks expect. -/
def LocOk (l : Loc) : Prop := ForestOk l.unzip

theorem LocOk.focus {l : Loc} (h : LocOk l) : TreeOk l.focus := forestOk_locs _ _ _ h _ l.mem_locs_unzip

theorem LocOk.node {l : Loc} (h : LocOk l) : NodeOk l.info l.focus.children := by
  have := h.focus
  obtain ⟨⟨i, cs⟩, ls, rs, ups⟩ := l
  exact this.1

theorem LocOk.prev {l p : Loc} (h : LocOk l) (hp : l.prev? = some p) : LocOk p := by
  unfold LocOk; rw [Loc.unzip_prev hp]; exact h

theorem LocOk.parent {l p : Loc} (h : LocOk l) (hp : l.parent? = some p) : LocOk p := by
  unfold LocOk; rw [Loc.unzip_parent hp]; exact h

theorem LocOk.ancestors {l a : Loc} (h : LocOk l) (ha : a ∈ l.ancestors) : LocOk a := by
  fun_induction Loc.ancestors l with
  | case1 => cases ha
  | case2 l p hp ih =>
    rcases List.mem_cons.1 ha with rfl | ha
    · exact h.parent hp
    · exact ih (h.parent hp) ha

/-! ## Outcomes -/

/-- Defined behaviour, and no internal error. -/
def Quiet (r : CheckOut) : Prop := ∃ x, r = .ok x ∧ ∀ res, x = some res → res.severity ≠ 'F'

theorem quiet_none : Quiet noResult := ⟨_, rfl, by simp⟩

theorem quiet_result {s : Char} {n : Nat} {msg : Str} (h : s ≠ 'F') : Quiet (result s n msg) :=
  ⟨_, rfl, by rintro _ ⟨⟩; exact h⟩

theorem quiet_bind {α : Type} {r : Res α} {f : α → CheckOut} (h : ∃ a, r = .ok a ∧ Quiet (f a)) :
    Quiet (r >>= f) := by
  obtain ⟨a, rfl, h⟩ := h
  exact h

/-- Split up the body of a check. -/
macro "quiet" : tactic => `(tactic| repeat' first
  | exact quiet_none
  | exact quiet_result (by decide)
  | split)

theorem quiet_permsLoop (fl : Str) (prev : Option Str) (l : List Str) : Quiet (permsLoop fl prev l) := by
  fun_induction permsLoop fl prev l <;> (try assumption) <;> quiet

theorem quiet_requireLoop (l : List Tree) : Quiet (requireLoop l) := by
  fun_induction requireLoop l <;> (try assumption) <;> quiet

theorem quiet_mismatchLoop (c : Str) (cs l : List Str) : Quiet (mismatchLoop c cs l) := by
  fun_induction mismatchLoop c cs l <;> (try assumption) <;> quiet

theorem quiet_spaceLoop (m : Maps) (call : Str) (p : Option Str) (n : Nat) (l : List (Str × Bool)) :
    Quiet (spaceLoop m call p n l) := by
  fun_induction spaceLoop m call p n l <;> (try assumption) <;> quiet

theorem quiet_riskyLoop (l : List Str) : Quiet (riskyLoop l) := by
  fun_induction riskyLoop l <;> (try assumption) <;> quiet

theorem quiet_unknownPermLoop (m : Maps) (l : List Str) : Quiet (unknownPermLoop m l) := by
  fun_induction unknownPermLoop m l <;> (try assumption) <;> quiet

theorem quiet_unknownClassLoop (m : Maps) (l : List Str) : Quiet (unknownClassLoop m l) := by
  fun_induction unknownClassLoop m l <;> (try assumption) <;> quiet

theorem quiet_notRequiredLoop (m : Maps) (req l : List Str) : Quiet (notRequiredLoop m req l) := by
  fun_induction notRequiredLoop m req l <;> (try assumption) <;> quiet

theorem quiet_unusedLoop (fl : Str) (used l : List Str) : Quiet (unusedLoop fl used l) := by
  fun_induction unusedLoop fl used l <;> (try assumption) <;> quiet

/-! ## W-001 -/

theorem requireBlockLists_defined {l : Loc} (h : LocOk l) (name : Str) (fl : DeclFlavor) :
    ∃ b, requireBlockLists l name fl = .ok b := by
  have hn := h.node
  unfold requireBlockLists isRequireBlock
  split
  · rename_i hr
    split
    · rename_i hc
      exfalso
      simp only [NodeInfo.flavor, Bool.or_eq_true, beq_iff_eq] at hr
      unfold NodeOk at hn
      rw [hc] at hn
      cases hd : l.info.data with
      | plain p s => rw [hd] at hn hr; cases p <;> simp_all [NodeData.flavor, PlainFlavor.toFlavor]
      | attr d => rw [hd] at hr; simp only [NodeData.flavor] at hr; split at hr <;> simp at hr
      | _ => rw [hd] at hn hr; simp_all [NodeData.flavor]
    · exact ⟨_, rfl⟩
  · exact ⟨_, rfl⟩

theorem hasRequire_defined (l : Loc) (name : Str) (fl : DeclFlavor) (h : LocOk l) :
    ∃ b, hasRequire l name fl = .ok b := by
  induction hk : l.backSteps using Nat.strongRecOn generalizing l with
  | ind k ih =>
    obtain ⟨b, hb⟩ := requireBlockLists_defined h name fl
    unfold hasRequire
    rw [hb]
    simp only [bind, Res.bind]
    split
    · exact ⟨_, rfl⟩
    · split
      · rename_i p hp
        exact ih _ (hk ▸ Loc.backSteps_prev hp) p (h.prev hp) rfl
      · split
        · rename_i p hp
          exact ih _ (hk ▸ Loc.backSteps_parent hp) p (h.parent hp) rfl
        · exact ⟨_, rfl⟩

theorem quiet_explicitLoop (m : Maps) (data : CheckData) (l : Loc) (h : LocOk l) (names : List Str) :
    Quiet (explicitLoop m data l names) := by
  induction names with
  | nil => exact quiet_none
  | cons n ns ih =>
    unfold explicitLoop
    split
    · exact ih
    · rename_i md fl _
      split
      · obtain ⟨b, hb⟩ := hasRequire_defined l n fl h
        refine quiet_bind ⟨b, hb, ?_⟩
        split
        · exact ih
        · quiet
      · exact ih

theorem usedNames_defined (l : Loc) : ∃ ns, usedNames l = .ok ns := by
  unfold usedNames
  split
  · rename_i d hd
    have : getNamesInNode l.info = (d.name :: d.attrs).map stripDash := by
      unfold getNamesInNode
      rw [show l.info.data = .decl d from hd]
    rw [this]
    exact ⟨_, rfl⟩
  · exact ⟨_, rfl⟩

theorem dataStr_ok {l : Loc} (h : LocOk l) (hd : isDefinition l.info = true) : ∃ s, dataStr l.info = .ok s := by
  have hn := h.node
  unfold NodeOk at hn
  unfold dataStr
  simp only [isDefinition, NodeInfo.flavor, Bool.or_eq_true, beq_iff_eq] at hd
  cases he : l.info.data with
  | plain p s =>
    rw [he] at hn hd
    cases p <;> simp [NodeData.flavor, PlainFlavor.toFlavor] at hd <;> cases s <;> simp_all
  | attr d => rw [he] at hd; simp only [NodeData.flavor] at hd; split at hd <;> simp at hd
  | _ => rw [he] at hd; simp [NodeData.flavor] at hd

/-! ## C-006 -/

/-- The one internal error of C-006, and when it comes. -/
def QuietRequire (l : Loc) (r : CheckOut) : Prop :=
  ∃ x, r = .ok x ∧ ∀ res, x = some res → res.severity = 'F' →
    res = internalError cs!"Non declaration node in require block" ∧
    ∃ t ∈ l.focus.children.tail, t.info.flavor ≠ .decl

theorem Quiet.require {l : Loc} {r : CheckOut} (h : Quiet r) : QuietRequire l r := by
  obtain ⟨x, h1, h2⟩ := h
  exact ⟨x, h1, fun res e hs => absurd hs (h2 res e)⟩

theorem requireOrderLoop_quiet (c : ConfigCheckData) (l : Loc) (prev : Option DeclData) (ts : List Tree)
    (hts : ∀ t ∈ ts, t ∈ l.focus.children.tail) : QuietRequire l (requireOrderLoop c prev ts) := by
  induction ts generalizing prev with
  | nil => exact quiet_none.require
  | cons t ts ih =>
    unfold requireOrderLoop
    split
    · split
      · exact ih _ fun t ht => hts t (.tail _ ht)
      · split
        · exact Quiet.require (by quiet)
        · split
          · exact Quiet.require (by quiet)
          · exact ih _ fun t ht => hts t (.tail _ ht)
    · rename_i hd
      refine ⟨_, rfl, ?_⟩
      rintro _ ⟨⟩ -
      refine ⟨rfl, t, hts t (.head _), ?_⟩
      intro hf
      cases he : t.info.data with
      | decl d => exact hd d he
      | plain p s =>
        simp only [NodeInfo.flavor, he, NodeData.flavor] at hf
        cases p <;> simp [PlainFlavor.toFlavor] at hf
      | attr d => simp only [NodeInfo.flavor, he, NodeData.flavor] at hf; split at hf <;> simp at hf
      | _ => simp [NodeInfo.flavor, he, NodeData.flavor] at hf

theorem unorderedDeclarationInRequire_quiet {data : CheckData} {l : Loc} (h : LocOk l)
    (hf : l.flavor = .require ∨ l.flavor = .genReq) :
    QuietRequire l (checkUnorderedDeclarationInRequire data l) := by
  have hn := h.node
  unfold NodeOk at hn
  have hf' : isRequireBlock l.info = true := by
    simp only [isRequireBlock, Bool.or_eq_true, beq_iff_eq]; exact hf
  have hc : ∃ c rest, l.focus.children = c :: rest ∧ c.info.flavor = .startBlock := by
    have hf2 : l.info.data.flavor = .require ∨ l.info.data.flavor = .genReq := hf
    cases he : l.info.data with
    | plain p s =>
      rw [he] at hn hf2
      cases p <;> simp [NodeData.flavor, PlainFlavor.toFlavor] at hf2
      exact hn
    | attr d => rw [he] at hf2; simp only [NodeData.flavor] at hf2; split at hf2 <;> simp at hf2
    | genReq u => rw [he] at hn; exact hn
    | _ => rw [he] at hf2; simp [NodeData.flavor] at hf2
  obtain ⟨c, rest, hc, hs⟩ := hc
  unfold checkUnorderedDeclarationInRequire
  simp only [hf', hc, hs, Bool.not_true, Bool.false_eq_true, if_false, ne_eq, not_true]
  split
  · exact Quiet.require (by quiet)
  · exact requireOrderLoop_quiet _ _ _ _ (by simp [hc])

/-! ## Flavor and data -/

/-- Find the data of a flavor. -/
macro "find_data" h:ident : tactic => `(tactic| (
  unfold Loc.flavor NodeInfo.flavor at $h:ident
  unfold Loc.data
  generalize NodeInfo.data _ = d at *
  cases d with
  | plain p s => cases p <;> first | exact ⟨_, rfl⟩ | simp [NodeData.flavor, PlainFlavor.toFlavor] at $h:ident
  | attr d => simp only [NodeData.flavor] at $h:ident; split at $h:ident <;> simp at $h:ident
  | _ => first | exact ⟨_, rfl⟩ | exact ⟨_, _, rfl⟩ | simp [NodeData.flavor] at $h:ident))

theorem data_av {l : Loc} (h : l.flavor = .avRule) : ∃ d, l.data = .av d := by
  find_data h

theorem data_xav {l : Loc} (h : l.flavor = .xavRule) : ∃ d o, l.data = .xav d o := by
  find_data h

theorem data_decl {l : Loc} (h : l.flavor = .decl) : ∃ d, l.data = .decl d := by
  find_data h

theorem data_ifCall {l : Loc} (h : l.flavor = .ifCall) : ∃ d, l.data = .ifCall d := by
  find_data h

theorem data_header {l : Loc} (h : l.flavor = .header) : ∃ d, l.data = .header d := by
  find_data h

theorem data_genReq {l : Loc} (h : l.flavor = .genReq) : ∃ u, l.data = .genReq u := by
  find_data h

theorem data_tt {l : Loc} (h : l.flavor = .ttRule) : ∃ d, l.data = .tt d := by
  find_data h

theorem data_rt {l : Loc} (h : l.flavor = .rtRule) : ∃ d, l.data = .rt d := by
  find_data h

theorem data_fc {l : Loc} (h : l.flavor = .fcEntry) : ∃ d, l.data = .fc d := by
  find_data h

theorem data_word {l : Loc} (h : l.flavor = .m4SimpleMacro) : ∃ s, l.data = .plain .m4SimpleMacro s := by
  find_data h

/-! ## All of them -/

/-- The flavors a check is registered for. -/
def fnOn : CheckFn → List NodeFlavor
  | .teOrder => [.teFile, .decl, .avRule, .xavRule, .ifCall, .ttRule, .cleanup]
  | .interfaceDefinitionsHaveComment => [.interfaceDef, .tempDef]
  | .unorderedPerms => [.avRule, .xavRule, .decl]
  | .unorderedDeclarationInRequire | .requireBlock => [.require, .genReq]
  | .noSelf => [.avRule, .xavRule]
  | .fileContextTypesInMod | .genContextNoRange | .fileContextRegex | .fileContextUsers
  | .fileContextRoles | .fileContextTypesExist => [.fcEntry]
  | .uselessSemicolon => [.semicolon]
  | .ifCallsTemplate | .moduleIfCallInOptional | .emptyIfCallArg | .spaceIfCallArg
  | .unknownInterfaceCall => [.ifCall]
  | .declInIf | .nameRequiredButNotUsedInIf | .requiredDeclarationOwn
  | .declarationInterfaceNameclash => [.decl]
  | .bareModuleStatement | .moduleFileNameMismatch => [.header]
  | .unquotedGenRequireBlock => [.genReq]
  | .permMacroClassMismatch | .permMacroAvailable | .riskyAllowPerm | .unknownPermission => [.avRule]
  | .noExplicitDeclaration | .nameUsedButNotRequiredInIf => namingNodes
  | .fileContextErrorNodes => [.error]
  | .unknownClass => [.avRule, .rtRule, .ttRule]
  | .emptyBlock => [.optionalPolicy, .genReq, .require]
  | .strayWord => [.m4SimpleMacro]

theorem fnOn_row : ∀ row ∈ checkTable, fnOn row.fn = row.on := by
  simp only [checkTable, List.forall_mem_cons, List.not_mem_nil, false_imp_iff, implies_true, fnOn,
    and_self]

/-- Defined behaviour; the static state of the other checks is untouched; the only internal
error is the one of C-006. -/
def SafeRun (fn : CheckFn) (l : Loc) (s : Statics) (r : Res (Statics × Option CheckResult)) : Prop :=
  ∃ s' x, r = .ok (s', x) ∧ s'.order = s.order ∧ s'.pm = s.pm ∧
    ∀ res, x = some res → res.severity = 'F' → fn = .unorderedDeclarationInRequire ∧
      res = internalError cs!"Non declaration node in require block" ∧
      ∃ t ∈ l.focus.children.tail, t.info.flavor ≠ .decl

theorem Quiet.safe {fn : CheckFn} {l : Loc} {s : Statics} {r : CheckOut} (h : Quiet r) :
    SafeRun fn l s (stateless s r) := by
  obtain ⟨x, rfl, h⟩ := h
  exact ⟨s, x, rfl, rfl, rfl, fun res e hs => absurd hs (h res e)⟩

theorem quiet_fc {l : Loc} {k : FcEntry → SelContext → Option CheckResult} (hl : l.flavor = .fcEntry)
    (hk : ∀ e c res, k e c = some res → res.severity ≠ 'F') : Quiet (.ok (setupForFcCheck l k)) := by
  obtain ⟨d, hd⟩ := data_fc hl
  refine ⟨_, rfl, ?_⟩
  intro res h
  simp only [setupForFcCheck, hd] at h
  split at h
  · cases h
  · exact hk _ _ _ h

theorem CheckFn.run_safe {m : Maps} {data : CheckData} {l : Loc} (hl : LocOk l) (s : Statics) (fn : CheckFn)
    (h1 : fn ≠ .teOrder) (h2 : fn ≠ .permMacroAvailable) (hf : l.flavor ∈ fnOn fn) :
    SafeRun fn l s (fn.run m data l s) := by
  have hn := hl.node
  have hn' : ∀ d, l.info.data = d → NodeOk ⟨d, l.info.exceptions, l.info.lineno⟩ l.focus.children := by
    rintro _ rfl; exact hn
  clear hn
  cases fn <;> simp only [CheckFn.run] <;> simp [fnOn] at hf <;> simp at h1 h2
  all_goals clear h1 h2
  case interfaceDefinitionsHaveComment =>
    have hd : isDefinition l.info = true := by
      simp only [isDefinition, Bool.or_eq_true, beq_iff_eq]; exact hf
    obtain ⟨n, hs⟩ := dataStr_ok hl hd
    refine Quiet.safe ?_
    simp only [checkInterfaceDefinitionsHaveComment, hd, Bool.not_true, Bool.false_eq_true, if_false]
    split
    · exact quiet_bind ⟨n, hs, quiet_result (by decide)⟩
    · split
      · exact quiet_bind ⟨n, hs, quiet_result (by decide)⟩
      · exact quiet_none
  case unorderedPerms =>
    refine Quiet.safe ?_
    unfold checkUnorderedPerms
    rcases hf with h | h | h
    · obtain ⟨d, hd⟩ := data_av h; rw [hd]; exact quiet_permsLoop _ _ _
    · obtain ⟨d, o, hd⟩ := data_xav h; rw [hd]; exact quiet_permsLoop _ _ _
    · obtain ⟨d, hd⟩ := data_decl h; rw [hd]
      simp only; split
      · exact quiet_none
      · exact quiet_permsLoop _ _ _
  case unorderedDeclarationInRequire =>
    obtain ⟨x, hx, h⟩ := unorderedDeclarationInRequire_quiet (data := data) hl hf
    exact ⟨s, x, by rw [hx]; rfl, rfl, rfl, fun res e hs => ⟨rfl, h res e hs⟩⟩
  case noSelf =>
    refine Quiet.safe ?_
    have key : ∀ ss ts : List Str, ss ≠ [] → ts ≠ [] → Quiet (noSelfBody m ss ts) := by
      intro ss ts h1 h2
      cases ss with
      | nil => exact absurd rfl h1
      | cons a ss =>
        cases ts with
        | nil => exact absurd rfl h2
        | cons b ts => unfold noSelfBody; quiet
    unfold checkNoSelf
    rcases hf with h | h
    · obtain ⟨d, hd⟩ := data_av h
      have := hn' _ hd
      rw [hd]; exact key _ _ this.1 this.2.1
    · obtain ⟨d, o, hd⟩ := data_xav h
      have := hn' _ hd
      rw [hd]; exact key _ _ this.1 this.2.1
  case requireBlock =>
    refine Quiet.safe ?_
    unfold checkRequireBlock; split
    · exact quiet_none
    · exact quiet_requireLoop _
  case fileContextTypesInMod =>
    refine ⟨_, _, rfl, rfl, rfl, ?_⟩
    intro res e hs
    have hq : Quiet (.ok (checkFileContextTypesInMod m data l)) := by
      refine quiet_fc hf ?_
      intro e c res h
      split at h
      · cases h
      · unfold fcTypeInMod at h
        split at h
        · cases h
        · split at h <;> cases h; simp
    obtain ⟨x, hx, h⟩ := hq
    cases hx
    exact absurd hs (h res e)
  case uselessSemicolon => exact Quiet.safe (quiet_result (by decide))
  case ifCallsTemplate =>
    refine Quiet.safe ?_
    obtain ⟨d, hd⟩ := data_ifCall hf
    unfold checkIfCallsTemplate
    rw [hd]
    split
    · exact quiet_none
    · split
      · exact quiet_none
      · rename_i p hp
        simp only
        split
        · obtain ⟨n, hs⟩ := dataStr_ok (hl.ancestors (List.mem_of_find?_eq_some hp))
            (by simpa using List.find?_some hp)
          exact quiet_bind ⟨n, hs, quiet_result (by decide)⟩
        · exact quiet_none
  case declInIf =>
    refine Quiet.safe ?_
    obtain ⟨d, hd⟩ := data_decl hf
    unfold checkDeclInIf; rw [hd]; quiet
  case bareModuleStatement =>
    refine Quiet.safe ?_
    obtain ⟨d, hd⟩ := data_header hf
    unfold checkBareModuleStatement; rw [hd]; simp only; quiet
  case genContextNoRange =>
    refine Quiet.safe (quiet_fc hf ?_)
    intro e c res h
    split at h <;> cases h; simp
  case unquotedGenRequireBlock =>
    refine Quiet.safe ?_
    obtain ⟨d, hd⟩ := data_genReq hf
    unfold checkUnquotedGenRequireBlock; rw [hd]; simp only; quiet
  case permMacroClassMismatch =>
    refine Quiet.safe ?_
    obtain ⟨d, hd⟩ := data_av hf
    have := hn' _ hd
    unfold checkPermMacroClassMismatch; rw [hd]; simp only
    split
    · rename_i e; exact absurd e this.2.2
    · split
      · exact quiet_none
      · exact quiet_mismatchLoop _ _ _
  case noExplicitDeclaration =>
    refine Quiet.safe ?_
    unfold checkNoExplicitDeclaration; split
    · exact quiet_none
    · obtain ⟨ns, hns⟩ := usedNames_defined l
      exact quiet_bind ⟨ns, hns, quiet_explicitLoop _ _ _ hl _⟩
  case nameUsedButNotRequiredInIf =>
    refine Quiet.safe ?_
    unfold checkNameUsedButNotRequiredInIf; split
    · exact quiet_none
    · split
      · exact quiet_none
      · split
        · exact quiet_none
        · obtain ⟨ns, hns⟩ := usedNames_defined l
          exact quiet_bind ⟨ns, hns, quiet_notRequiredLoop _ _ _⟩
  case nameRequiredButNotUsedInIf =>
    refine Quiet.safe ?_
    obtain ⟨d, hd⟩ := data_decl hf
    have hun : ∀ fl req, Quiet (unusedCheck fl l req) := by
      intro fl req
      have : getNamesInNode l.info = (d.name :: d.attrs).map stripDash := by
        unfold getNamesInNode
        rw [show l.info.data = .decl d from hd]
      unfold unusedCheck
      rw [this]
      exact quiet_unusedLoop _ _ _
    have hclimb : ∀ (ls : List Loc) (req : Option Loc), ls ≠ [] → (∀ a ∈ ls, LocOk a) →
        ∃ p, climbToDefinition req ls = some p ∧ LocOk p.1 := by
      intro ls
      induction ls with
      | nil => intro _ h; exact absurd rfl h
      | cons a ls ih =>
        intro req _ hls
        cases ls with
        | nil => exact ⟨_, rfl, hls _ (.head _)⟩
        | cons b ls =>
          unfold climbToDefinition
          split
          · exact ⟨_, rfl, hls _ (.head _)⟩
          · exact ih _ (by simp) fun x hx => hls x (.tail _ hx)
    obtain ⟨⟨defn, req⟩, hp, hok⟩ := hclimb (l :: l.ancestors) none (by simp) fun a ha => by
      rcases List.mem_cons.1 ha with rfl | ha
      · exact hl
      · exact hl.ancestors ha
    unfold checkNameRequiredButNotUsedInIf
    rw [hd, hp]
    split
    · exact quiet_none
    · simp only
      split
      · exact quiet_none
      · split
        · rename_i hdef
          split
          · obtain ⟨n, hs⟩ := dataStr_ok hok hdef
            refine quiet_bind ⟨n, hs, ?_⟩
            split
            · exact quiet_none
            · exact hun _ _
          · exact hun _ _
        · exact quiet_none
  case fileContextRegex =>
    refine Quiet.safe (quiet_fc hf ?_)
    intro e c res h
    split at h <;> cases h; simp
  case moduleIfCallInOptional =>
    refine Quiet.safe ?_
    obtain ⟨d, hd⟩ := data_ifCall hf
    unfold checkModuleIfCallInOptional; rw [hd]; simp only; quiet
  case emptyIfCallArg =>
    refine Quiet.safe ?_
    obtain ⟨d, hd⟩ := data_ifCall hf
    unfold checkEmptyIfCallArg; rw [hd]; simp only; quiet
  case spaceIfCallArg =>
    refine Quiet.safe ?_
    obtain ⟨d, hd⟩ := data_ifCall hf
    unfold checkSpaceIfCallArg; rw [hd]; exact quiet_spaceLoop _ _ _ _ _
  case riskyAllowPerm =>
    refine Quiet.safe ?_
    obtain ⟨d, hd⟩ := data_av hf
    unfold checkRiskyAllowPerm; rw [hd]; simp only; split
    · exact quiet_none
    · exact quiet_riskyLoop _
  case moduleFileNameMismatch =>
    refine Quiet.safe ?_
    obtain ⟨d, hd⟩ := data_header hf
    unfold checkModuleFileNameMismatch; rw [hd]; simp only; quiet
  case unknownInterfaceCall =>
    refine Quiet.safe ?_
    obtain ⟨d, hd⟩ := data_ifCall hf
    unfold checkUnknownInterfaceCall; rw [hd]; simp only; quiet
  case requiredDeclarationOwn =>
    refine Quiet.safe ?_
    obtain ⟨d, hd⟩ := data_decl hf
    unfold checkRequiredDeclarationOwn; rw [hd]; simp only; quiet
  case fileContextErrorNodes =>
    refine Quiet.safe ⟨_, rfl, ?_⟩
    intro res h
    unfold checkFileContextErrorNodes at h
    split at h <;> cases h; simp
  case fileContextUsers =>
    refine Quiet.safe (quiet_fc hf ?_)
    intro e c res h
    split at h <;> cases h; simp
  case fileContextRoles =>
    refine Quiet.safe (quiet_fc hf ?_)
    intro e c res h
    split at h <;> cases h; simp
  case fileContextTypesExist =>
    refine Quiet.safe (quiet_fc hf ?_)
    intro e c res h
    split at h <;> cases h; simp
  case declarationInterfaceNameclash =>
    refine Quiet.safe ?_
    obtain ⟨d, hd⟩ := data_decl hf
    unfold checkDeclarationInterfaceNameclash; rw [hd]; simp only; quiet
  case unknownPermission =>
    refine Quiet.safe ?_
    obtain ⟨d, hd⟩ := data_av hf
    unfold checkUnknownPermission; rw [hd]; exact quiet_unknownPermLoop _ _
  case unknownClass =>
    refine Quiet.safe ?_
    unfold checkUnknownClass
    rcases hf with h | h | h
    · obtain ⟨d, hd⟩ := data_av h; rw [hd]; exact quiet_unknownClassLoop _ _
    · obtain ⟨d, hd⟩ := data_rt h; rw [hd]; exact quiet_unknownClassLoop _ _
    · obtain ⟨d, hd⟩ := data_tt h; rw [hd]; exact quiet_unknownClassLoop _ _
  case emptyBlock =>
    refine Quiet.safe ?_
    unfold checkEmptyBlock; quiet
  case strayWord =>
    refine Quiet.safe ?_
    obtain ⟨o, hd⟩ := data_word hf
    have := hn' _ hd
    cases o with
    | none => exact absurd rfl this
    | some w => unfold checkStrayWord; rw [hd]; simp only; quiet

end Selint
