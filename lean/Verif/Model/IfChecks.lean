import Verif.Model.TeChecks
import Verif.Model.Run
/-! # Checks on if files (if_checks.c) -/

namespace Selint

/-- Is the node the definition of an interface or template? -/
def isDefinition (i : NodeInfo) : Bool := i.flavor == .interfaceDef || i.flavor == .tempDef

/-- `node->data.str` where the code goes on to read the string. -/
def dataStr (i : NodeInfo) : Res Str :=
  match i.data with
  | .plain _ (some s) => .ok s
  | _ => .ub

/-- if_checks.c:28-46 `check_interface_definitions_have_comment` (C-004). -/
def checkInterfaceDefinitionsHaveComment (node : Loc) : CheckOut :=
  if !isDefinition node.info then
    internal cs!"Interface comment check called on non interface definition entry"
  else
    let noComment : CheckOut := do
      let name ← dataStr node.info
      result 'C' 4 (cs!"No comment before interface definition for " ++ name)
    match node.prev? with
    | none => noComment
    | some p => if p.flavor ≠ .comment then noComment else noResult

/-! ## C-006 -/

/-- if_checks.c:54-61: the loop over the configured order. -/
def flavorOrderLoop (a b : DeclFlavor) : List DeclFlavor → Int
  | [] => 0
  | f :: fs => if a = f then -1 else if b = f then 1 else flavorOrderLoop a b fs

/-- if_checks.c:48-65 `compare_declaration_flavors`. -/
def compareDeclarationFlavors (a b : DeclFlavor) (config : ConfigCheckData) : Int :=
  if a = b then 0 else flavorOrderLoop a b config.orderRequires

/-- if_checks.c:90-96: step back over the underscore of a final `_t`. `prev` is the character
before the pointer (`none` at the start of the name), `rest` what is left of the name; the
result is the character then pointed at. -/
def backOverT (prev : Option Char) (rest : Str) : Char :=
  if rest = ['t'] && prev = some '_' then '_' else rest.headD '\x00'

/-- if_checks.c:78-98: the comparison of the names; `prev` is the last character of the part
already passed. -/
def compareNames (prev : Option Char) (a b : Str) : Int :=
  match a, b with
  | x :: a', y :: b' =>
    if x = y then compareNames (some x) a' b'
    else (backOverT prev a).toNat - (backOverT prev b).toNat
  | _, _ => (backOverT prev a).toNat - (backOverT prev b).toNat

/-- if_checks.c:67-99 `compare_declarations`. -/
def compareDecls (a b : DeclData) (config : ConfigCheckData) : Int :=
  let r := compareDeclarationFlavors a.flavor b.flavor config
  if r ≠ 0 then r
  else if !config.orderingRequiresSameFlavor then -1
  else compareNames none a.name b.name

/-- if_checks.c:123-154: the loop over the declarations. -/
def requireOrderLoop (config : ConfigCheckData) : Option DeclData → List Tree → CheckOut
  | _, [] => noResult
  | prev, t :: ts =>
    match t.info.data with
    | .decl d =>
      match prev with
      | none => requireOrderLoop config (some d) ts
      | some p =>
        if compareDecls p d config > 0 then
          result 'C' 6 (cs!"Unordered declaration in require block (" ++
            declFlavorToString p.flavor ++ cs!" " ++ p.name ++ cs!" before " ++
            declFlavorToString d.flavor ++ cs!" " ++ d.name ++ cs!")")
        else if compareDecls p d config = 0 then
          result 'C' 6 (cs!"Repeated declaration in require block (" ++
            declFlavorToString d.flavor ++ cs!" " ++ d.name ++ cs!")")
        else requireOrderLoop config (some d) ts
    | _ => internal cs!"Non declaration node in require block"

/-- if_checks.c:101-157 `check_unordered_declaration_in_require` (C-006). -/
def checkUnorderedDeclarationInRequire (data : CheckData) (node : Loc) : CheckOut :=
  if !isRequireBlock node.info then
    internal cs!"Unordered declaration in require check called on non require node"
  else
    match node.focus.children with
    | [] => internal cs!"No start-block node in require block"
    | first :: rest =>
      if first.info.flavor ≠ .startBlock then internal cs!"No start-block node in require block"
      else
        match rest with
        | [] => result 'C' 6 cs!"Empty require block"
        | _ => requireOrderLoop data.config none rest

/-! ## S-004, S-005, S-008 -/

/-- if_checks.c:159-189 `check_if_calls_template` (S-004). -/
def checkIfCallsTemplate (m : Maps) (data : CheckData) (node : Loc) : CheckOut :=
  if data.flavor ≠ .ifFile then noResult
  else
    match node.ancestors.find? (fun p => isDefinition p.info) with
    | none => noResult
    | some parent =>
      match node.data with
      | .ifCall d =>
        if parent.flavor = .interfaceDef && (m.lookUpTemplate d.name).isSome then do
          let name ← dataStr parent.info
          result 'S' 4 (cs!"interface " ++ name ++ cs!" calls template " ++ d.name)
        else noResult
      | _ => .ub

/-- if_checks.c:200-213: the loop over the enclosing nodes; `true` if it ends at the
definition of an interface. -/
def declInIfLoop : List Loc → Bool
  | [] => false
  | p :: ps =>
    if isDefinition p.info then p.flavor == .interfaceDef
    else if isRequireBlock p.info then false
    else declInIfLoop ps

/-- if_checks.c:191-220 `check_decl_in_if` (S-005). -/
def checkDeclInIf (data : CheckData) (node : Loc) : CheckOut :=
  if data.flavor ≠ .ifFile then noResult
  else if !declInIfLoop node.ancestors then noResult
  else
    match node.data with
    | .decl d => result 'S' 5 (cs!"Declaration of " ++ d.name ++ cs!" in interface")
    | _ => .ub

/-- if_checks.c:222-233 `check_unquoted_gen_require_block` (S-008). -/
def checkUnquotedGenRequireBlock (node : Loc) : CheckOut :=
  match node.data with
  | .genReq unquoted => if unquoted then result 'S' 8 cs!"Gen require block unquoted" else noResult
  | _ => .ub

/-! ## W-002 -/

/-- if_checks.c:268-283: the names required between the start of the definition (`cur`) and
the node. -/
def namesRequiredBefore (node : Loc) (cur : Option Loc) : List Str :=
  match cur with
  | none => []
  | some c =>
    ((c.walk.takeWhile fun l => l.path ≠ node.path).filter fun l => isRequireBlock l.info).flatMap
      fun l => getNamesRequired l.focus

/-- if_checks.c:299-317: what kind of known symbol the name is. -/
def requiredFlavorName (m : Maps) (name : Str) : Option Str :=
  if (m.lookUpDecl name .type).isSome then some cs!"Type"
  else if (m.lookUpDecl name .attribute).isSome then some cs!"Attribute"
  else if (m.lookUpDecl name .attributeRole).isSome then some cs!"Role Attribute"
  else if (m.lookUpDecl name .role).isSome then some cs!"Role"
  else none

/-- if_checks.c:292-334: the loop over the names. -/
def notRequiredLoop (m : Maps) (required : List Str) : List Str → CheckOut
  | [] => noResult
  | name :: names =>
    if !strInSl name required then
      if strcmp name cs!"system_r" = 0 then notRequiredLoop m required names
      else
        match requiredFlavorName m name with
        | none => notRequiredLoop m required names
        | some flavor =>
          result 'W' 2 (flavor ++ cs!" " ++ name ++ cs!" is used in interface but not required")
    else notRequiredLoop m required names

/-- if_checks.c:235-340 `check_name_used_but_not_required_in_if` (W-002). -/
def checkNameUsedButNotRequiredInIf (m : Maps) (data : CheckData) (node : Loc) : CheckOut :=
  if data.flavor ≠ .ifFile then noResult
  else if getNamesInNode node.info = [] then noResult
  else
    match (node :: node.ancestors).find? (fun p => isDefinition p.info) with
    | none => noResult
    | some defn => do
      let names ← usedNames node
      notRequiredLoop m (namesRequiredBefore node defn.firstChild?) names

/-! ## W-003 -/

/-- if_checks.c:352-364: the checked flavors. -/
def checkedRequireFlavor : DeclFlavor → Option Str
  | .type => some cs!"Type"
  | .attribute => some cs!"Attribute"
  | .attributeRole => some cs!"Role Attribute"
  | .role => some cs!"Role"
  | _ => none

/-- if_checks.c:366-374: climb to the definition (or the top), remembering the outermost
require block passed. The list is `node`, `node->parent`, … . -/
def climbToDefinition (req : Option Loc) : List Loc → Option (Loc × Option Loc)
  | [] => none
  | [cur] => some (cur, req)
  | cur :: up :: rest =>
    if isDefinition cur.info then some (cur, req)
    else climbToDefinition (if isRequireBlock cur.info then some cur else req) (up :: rest)

/-- if_checks.c:418-427: the inner loop, `while (cur->parent && depth > 0)`. -/
def climbWithin (cur : Loc) : Nat → Loc × Nat
  | 0 => (cur, 0)
  | depth + 1 =>
    match cur.parent? with
    | none => (cur, depth + 1)
    | some p => if p.next?.isSome then (p, depth) else climbWithin p depth

/-- if_checks.c:411-428: the next node of the walk with its depth. -/
def usesStep (cur : Loc) (depth : Nat) : Option (Loc × Nat) :=
  match cur.firstChild? with
  | some c => some (c, depth + 1)
  | none =>
    match cur.next? with
    | some n => some (n, depth)
    | none =>
      let r := climbWithin cur depth
      r.1.next?.map fun n => (n, r.2)

theorem climbWithin_next (l : Loc) (hn : l.next? = none) (depth : Nat) {n : Loc}
    (h : (climbWithin l depth).1.next? = some n) :
    Loc.climb l.focus l.lefts l.rights l.ups = some n := by
  induction depth generalizing l with
  | zero => rw [climbWithin, hn] at h; cases h
  | succ d ih =>
    unfold climbWithin at h
    obtain ⟨t, ls, rs, ups⟩ := l
    cases ups with
    | nil =>
      simp only [Loc.parent?] at h
      rw [hn] at h; cases h
    | cons f fs =>
      simp only [Loc.parent?] at h
      simp only [Loc.climb]
      by_cases hf : f.rights = []
      · rw [if_neg (by simp [Loc.next?, hf])] at h
        have := ih _ (by simp [Loc.next?, hf]) h
        simp only [hf] at this ⊢
        exact this
      · obtain ⟨r, rs', he⟩ := List.exists_cons_of_ne_nil hf
        rw [if_pos (by simp [Loc.next?, he])] at h
        simp only [Loc.next?, he, Option.some.injEq] at h ⊢
        exact h

/-- The walk goes where `dfs_next` goes, only that it may end earlier. -/
theorem usesStep_dfsNext {l : Loc} {depth : Nat} {n : Loc} {d : Nat}
    (h : usesStep l depth = some (n, d)) : l.dfsNext = some n := by
  unfold usesStep at h
  unfold Loc.dfsNext
  cases hc : l.firstChild? with
  | some c => rw [hc] at h; cases h; rfl
  | none =>
    rw [hc] at h
    cases hn : l.next? with
    | some c => rw [hn] at h; cases h; rfl
    | none =>
      rw [hn] at h
      simp only [Option.map_eq_some_iff, Prod.mk.injEq] at h
      obtain ⟨a, h1, h2, -⟩ := h
      exact climbWithin_next l hn depth (h2 ▸ h1)

/-- if_checks.c:397-429: the names used from `cur` on. -/
def namesUsed (cur : Loc) (depth : Nat) : List Str :=
  getNamesInNode cur.info ++
    match _h : usesStep cur depth with
    | none => []
    | some (n, d) => namesUsed n d
termination_by cur.remaining
decreasing_by exact Loc.remaining_dfsNext (usesStep_dfsNext _h)

/-- if_checks.c:435-450: the loop over the required names. -/
def unusedLoop (flavor : Str) (used : List Str) : List Str → CheckOut
  | [] => noResult
  | name :: names =>
    if !strInSl name used then
      result 'W' 3 (flavor ++ cs!" " ++ name ++
        cs!" is listed in require block but not used in interface")
    else unusedLoop flavor used names

/-- if_checks.c:388-454: the check proper, for the require block `req`. -/
def unusedCheck (flavor : Str) (node req : Loc) : CheckOut :=
  match getNamesInNode node.info with
  | [] => internal cs!"Declaration with no declared items"
  | names =>
    let used := match req.next? with
      | none => []
      | some n => namesUsed n 0
    unusedLoop flavor used names

/-- if_checks.c:342-455 `check_name_required_but_not_used_in_if` (W-003). -/
def checkNameRequiredButNotUsedInIf (data : CheckData) (node : Loc) : CheckOut :=
  if data.flavor ≠ .ifFile then noResult
  else
    match node.data with
    | .decl dd =>
      match checkedRequireFlavor dd.flavor with
      | none => noResult
      | some flavor =>
        match climbToDefinition none (node :: node.ancestors) with
        | none => .ub
        | some (defn, req) =>
          match isDefinition defn.info, req with
          | true, some req =>
            if defn.flavor = .interfaceDef then do
              let name ← dataStr defn.info
              if endsWith name cs!"_stub" then noResult else unusedCheck flavor node req
            else unusedCheck flavor node req
          | _, _ => noResult
    | _ => .ub

/-! ## W-011 -/

/-- if_checks.c:457-508 `check_required_declaration_own` (W-011). -/
def checkRequiredDeclarationOwn (m : Maps) (data : CheckData) (node : Loc) : CheckOut :=
  if data.flavor ≠ .ifFile then noResult
  else
    match node.data with
    | .decl d =>
      if d.flavor = .cls || d.flavor = .perm || d.flavor = .user then noResult
      else if d.name.head? = some '$' then noResult
      else if !node.isInRequire then noResult
      else
        match m.lookUpDecl d.name d.flavor with
        | none =>
          result 'W' 11 (cs!"Definition of declared " ++ declFlavorToString d.flavor ++ cs!" " ++
            d.name ++ cs!" not found in any module")
        | some mod =>
          if strcmp mod data.modName = 0 then noResult
          else if d.flavor = .role && strcmp mod cs!"kernel" = 0 then noResult
          else
            result 'W' 11 (cs!"Definition of declared " ++ declFlavorToString d.flavor ++ cs!" " ++
              d.name ++ cs!" not found in own module, but in module " ++ mod)
    | _ => .ub

end Selint
