import Verif.Model.Hooks
import Verif.Model.PermMacro
/-!
# Checks on te files (te_checks.c), all but C-001

C-001 is `checkTeOrder` in `Model/Ordering.lean`. A check that reads a member of
`node->data` without looking at the flavor, or the first element of a list without looking
whether it is empty, has the outcome `ub` on a node of another flavor or with an empty list.
-/

namespace Selint

/-- What a check without static state returns. -/
abbrev CheckOut := Res (Option CheckResult)

/-- `return NULL`. -/
def noResult : CheckOut := .ok none

/-- `return make_check_result(…)`. -/
def result (severity : Char) (id : Nat) (message : Str) : CheckOut :=
  .ok (some ⟨severity, id, message⟩)

/-- `return alloc_internal_error(…)`. -/
def internal (message : Str) : CheckOut := .ok (some (internalError message))

/-- The nodes `node->parent`, `node->parent->parent`, … . -/
def Loc.ancestors (l : Loc) : List Loc :=
  match _h : l.parent? with
  | none => []
  | some p => p :: p.ancestors
termination_by l.ups.length
decreasing_by
  unfold Loc.parent? at _h
  split at _h
  · cases _h
  · rename_i f fs heq
    cases _h
    simp [heq]

/-! ## C-005 -/

/-- te_checks.c:117-137: the loop. -/
def permsLoop (flavor : Str) : Option Str → List Str → CheckOut
  | _, [] => noResult
  | none, cur :: rest => permsLoop flavor (some cur) rest
  | some prev, cur :: rest =>
    if strcmp prev cs!"~" ≠ 0 && strcmp cur cs!"-" ≠ 0 then
      if strcmp prev cur > 0 then
        result 'C' 5 (cs!"Permissions in " ++ flavor ++ cs!" not ordered (" ++ prev ++
          cs!" before " ++ cur ++ cs!")")
      else if strcmp prev cur = 0 then
        result 'C' 5 (cs!"Permissions in " ++ flavor ++ cs!" repeated (" ++ cur ++ cs!")")
      else permsLoop flavor (some cur) rest
    else permsLoop flavor (some cur) rest

/-- te_checks.c:95-141 `check_unordered_perms` (C-005). -/
def checkUnorderedPerms (node : Loc) : CheckOut :=
  match node.data with
  | .av d => permsLoop cs!"av rule" none d.perms
  | .xav d _ => permsLoop cs!"xav rule" none d.perms
  | .decl d => if d.flavor ≠ .cls then noResult else permsLoop cs!"class declaration" none d.attrs
  | _ => internal cs!"Invalid node type for `check_unordered_perms`"

/-! ## C-007 -/

/-- te_checks.c:149-170: the rule has sources `sources` and targets `targets`. The members
used are the same in `av_rule_data` and `xav_rule_data`. -/
def noSelfBody (m : Maps) (sources targets : List Str) : CheckOut :=
  match sources, targets with
  | s :: ss, t :: ts =>
    if ss ≠ [] || ts ≠ [] || strcmp t cs!"self" = 0 || strcmp s t ≠ 0 then noResult
    else if s.head? = some '$' then
      if !endsWith s cs!"_t" then noResult
      else result 'C' 7 cs!"Recommend use of self keyword instead of redundant type"
    else if (m.lookUpDecl s .type).isNone then noResult
    else result 'C' 7 cs!"Recommend use of self keyword instead of redundant type"
  | _, _ => .ub

/-- te_checks.c:143-171 `check_no_self` (C-007). -/
def checkNoSelf (m : Maps) (node : Loc) : CheckOut :=
  match node.data with
  | .av d => noSelfBody m d.sources d.targets
  | .xav d _ => noSelfBody m d.sources d.targets
  | _ => internal cs!"Bad node type given to check C-007"

/-! ## S-001, S-003, S-006 -/

/-- te_checks.c:180-194: the loop over the children. -/
def requireLoop : List Tree → CheckOut
  | [] => noResult
  | t :: ts =>
    match t.info.data with
    | .decl d =>
      if d.flavor ≠ .cls && d.flavor ≠ .perm then
        result 'S' 1 cs!"Require block used in te file (use an interface call instead)"
      else requireLoop ts
    | _ => requireLoop ts

/-- te_checks.c:173-195 `check_require_block` (S-001). -/
def checkRequireBlock (data : CheckData) (node : Loc) : CheckOut :=
  if data.flavor ≠ .teFile then noResult else requireLoop node.focus.children

/-- te_checks.c:197-202 `check_useless_semicolon` (S-003). -/
def checkUselessSemicolon : CheckOut := result 'S' 3 cs!"Unnecessary semicolon"

/-- te_checks.c:204-213 `check_bare_module_statement` (S-006). -/
def checkBareModuleStatement (node : Loc) : CheckOut :=
  match node.data with
  | .header d =>
    match d.flavor with
    | .bare => result 'S' 6 cs!"Bare module statement (use `policy_module()` instead)"
    | .macro => noResult
  | _ => .ub

/-! ## S-009 -/

/-- te_checks.c:216-225 `all_netlink_socket_classes`. -/
def allNetlinkSocketClasses : List Str → Bool
  | [] => true
  | c :: cs => if !(cs!"netlink_").isPrefixOf c then false else allNetlinkSocketClasses cs

/-- te_checks.c:228-237 `all_socket_classes`. -/
def allSocketClasses : List Str → Bool
  | [] => true
  | c :: cs => if !endsWith c cs!"_socket" then false else allSocketClasses cs

/-- te_checks.c:240-251 `ends_with_suffix_perms`. -/
def endsWithSuffixPerms (str suffix : Str) : Bool :=
  if str.length < suffix.length + 6 then false
  else suffix.isPrefixOf (str.drop (str.length - (suffix.length + 6)))

/-- te_checks.c:257-267: the alias of a class. -/
def classAlias (cls : Str) : Option Str :=
  if strcmp cls cs!"chr_file" = 0 then some cs!"term"
  else if strcmp cls cs!"process" = 0 then some cs!"signal"
  else none

/-- te_checks.c:252-275 `ends_with_all_suffix_perms`. -/
def endsWithAllSuffixPerms (str : Str) : List Str → Bool
  | [] => true
  | c :: cs =>
    if !endsWithSuffixPerms str c then
      match classAlias c with
      | none => false
      | some a => if !endsWithSuffixPerms str a then false else endsWithAllSuffixPerms str cs
    else endsWithAllSuffixPerms str cs

/-- te_checks.c:280-286 `file_suffix_classes`. -/
def fileSuffixClasses : List Str :=
  [cs!"lnk_file", cs!"chr_file", cs!"blk_file", cs!"sock_file", cs!"fifo_file"]

/-- te_checks.c:300-334: does the body of the loop report the permission? -/
def mismatchReported (classes : List Str) (perm : Str) : Bool :=
  if !endsWith perm cs!"_perms" then false
  else if endsWithAllSuffixPerms perm classes then
    strInSl cs!"file" classes && fileSuffixClasses.any (endsWithSuffixPerms perm)
  else if allNetlinkSocketClasses classes && endsWith perm cs!"_socket_perms" then false
  else if allSocketClasses classes && !allNetlinkSocketClasses classes
      && endsWith perm cs!"_socket_perms" && !endsWith perm cs!"netlink_socket_perms" then false
  else true

/-- te_checks.c:299-341: the loop over the permissions; `c :: cs` are the classes. -/
def mismatchLoop (c : Str) (cs : List Str) : List Str → CheckOut
  | [] => noResult
  | perm :: perms =>
    if mismatchReported (c :: cs) perm then
      result 'S' 9 (cs!"Permission macro " ++ perm ++ cs!" does not match class " ++
        (if cs ≠ [] then cs!"(multi class av rule)" else c))
    else mismatchLoop c cs perms

/-- te_checks.c:277-344 `check_perm_macro_class_mismatch` (S-009). -/
def checkPermMacroClassMismatch (node : Loc) : CheckOut :=
  match node.data with
  | .av d =>
    match d.objectClasses with
    | [] => .ub
    | c :: cs => if endsWith c cs!"_class_set" then noResult else mismatchLoop c cs d.perms
  | _ => .ub

/-! ## S-010 -/

/-- te_checks.c:346-372 `check_perm_macro_available` (S-010), with the static state of
perm_macro.c. -/
def checkPermMacroAvailable (m : Maps) (node : Loc) (st : PmState) :
    Res (PmState × Option CheckResult) :=
  match node.data with
  | .av d =>
    if d.flavor ≠ .allow then .ok (st, none)
    else match d.objectClasses with
      | [] => .ub
      | c :: cs =>
        if cs ≠ [] || endsWith c cs!"_class_set" then .ok (st, none)
        else do
          let (st, r) ← permmacroCheck m st c d.perms
          match r with
          | none => pure (st, none)
          | some s => pure (st, some ⟨'S', 10, s⟩)
  | _ => .ub

/-! ## W-001 -/

/-- Is the node a require block (`NODE_REQUIRE` or `NODE_GEN_REQ`)? -/
def isRequireBlock (i : NodeInfo) : Bool := i.flavor == .require || i.flavor == .genReq

/-- te_checks.c:383-397: does the node declare `name` as a symbol of class `flavor`? -/
def declLists (name : Str) (flavor : DeclFlavor) (i : NodeInfo) : Bool :=
  match i.data with
  | .decl d => d.flavor == flavor && (strcmp name d.name == 0 || d.attrs.any (strcmp name · == 0))
  | _ => false

/-- A bound on the steps `has_require` still can do from a node. -/
def Loc.backSteps (l : Loc) : Nat := l.lefts.length + (l.ups.map (·.lefts.length + 1)).sum

theorem Loc.backSteps_prev {l p : Loc} (h : l.prev? = some p) : p.backSteps < l.backSteps := by
  unfold Loc.prev? at h
  split at h
  · cases h
  · rename_i heq; cases h; simp [Loc.backSteps, heq]

theorem Loc.backSteps_parent {l p : Loc} (h : l.parent? = some p) : p.backSteps < l.backSteps := by
  unfold Loc.parent? at h
  split at h
  · cases h
  · rename_i heq; cases h; simp [Loc.backSteps, heq]; omega

/-- te_checks.c:381-406: look through the children if the node is a require block. The
block's first child is read without a test for NULL. -/
def requireBlockLists (cur : Loc) (name : Str) (flavor : DeclFlavor) : Res Bool :=
  if isRequireBlock cur.info then
    match cur.focus.children with
    | [] => .ub
    | ts => .ok (ts.any fun t => declLists name flavor t.info)
  else .ok false

/-- te_checks.c:376-416 `has_require`. -/
def hasRequire (cur : Loc) (name : Str) (flavor : DeclFlavor) : Res Bool := do
  let found ← requireBlockLists cur name flavor
  if found then pure true
  else
    match _h : cur.prev? with
    | some p => hasRequire p name flavor
    | none =>
      match _h2 : cur.parent? with
      | some p => hasRequire p name flavor
      | none => pure false
termination_by cur.backSteps
decreasing_by
  · exact Loc.backSteps_prev _h
  · exact Loc.backSteps_parent _h2

/-- te_checks.c:437-451: the first table that knows the name; `none` is `continue`. -/
def explicitFlavor (m : Maps) (name : Str) : Option (Str × DeclFlavor) :=
  match m.lookUpDecl name .type with
  | some md => some (md, .type)
  | none =>
    match m.lookUpDecl name .attribute with
    | some md => some (md, .attribute)
    | none =>
      match m.lookUpDecl name .attributeRole with
      | some md => some (md, .attributeRole)
      | none => none

/-- te_checks.c:435-462: the loop over the names. -/
def explicitLoop (m : Maps) (data : CheckData) (node : Loc) : List Str → CheckOut
  | [] => noResult
  | name :: names =>
    match explicitFlavor m name with
    | none => explicitLoop m data node names
    | some (modName, flavor) =>
      if strcmp data.modName modName ≠ 0 then do
        if ← hasRequire node name flavor then explicitLoop m data node names
        else
          result 'W' 1 (cs!"No explicit declaration for " ++ name ++ cs!" from module " ++ modName
            ++ cs!".  You should access it via interface call or use a require block.")
      else explicitLoop m data node names

/-- te_checks.c:429-433 (and if_checks.c:285-289): the names to look at. In declarations the
first name is skipped (an empty list cannot be skipped). -/
def usedNames (node : Loc) : Res (List Str) :=
  let names := getNamesInNode node.info
  match node.data with
  | .decl _ =>
    match names with
    | [] => .ub
    | _ :: names => .ok names
  | _ => .ok names

/-- te_checks.c:419-467 `check_no_explicit_declaration` (W-001). -/
def checkNoExplicitDeclaration (m : Maps) (data : CheckData) (node : Loc) : CheckOut :=
  if data.flavor ≠ .teFile then noResult
  else do
    let names ← usedNames node
    explicitLoop m data node names

/-! ## W-005 – W-010 -/

/-- te_checks.c:469-516 `check_module_if_call_in_optional` (W-005). -/
def checkModuleIfCallInOptional (m : Maps) (data : CheckData) (node : Loc) : CheckOut :=
  match node.data with
  | .ifCall d =>
    match m.lookUpIf d.name with
    | none => noResult
    | some ifModName =>
      if strcmp ifModName data.modName = 0 then noResult
      else
        match m.lookUpMod ifModName with
        | none => noResult
        | some modType =>
          if strcmp modType cs!"base" = 0 then noResult
          else if node.ancestors.any (fun a => a.flavor == .optionalPolicy) then noResult
          else result 'W' 5 (cs!"Call to interface " ++ d.name ++ cs!" defined in module " ++
            ifModName ++ cs!" should be in optional_policy block")
  | _ => .ub

/-- te_checks.c:518-531 `check_empty_if_call_arg` (W-006). -/
def checkEmptyIfCallArg (node : Loc) : CheckOut :=
  match node.data with
  | .ifCall d =>
    if d.args = [] then
      result 'W' 6 (cs!"Call to interface " ++ d.name ++ cs!" with empty argument")
    else noResult
  | _ => .ub

/-- te_checks.c:545-549: is the previous argument a known symbol? -/
def knownSymbol (m : Maps) (s : Str) : Bool :=
  (m.lookUpDecl s .type).isSome || (m.lookUpDecl s .attribute).isSome ||
  (m.lookUpDecl s .role).isSome || (m.lookUpDecl s .attributeRole).isSome ||
  (m.lookUpDecl s .user).isSome

/-- te_checks.c:541-565: the loop over the arguments. Simplification: `i` does not wrap
around after 65535 arguments. -/
def spaceLoop (m : Maps) (call : Str) : Option Str → Nat → List (Str × Bool) → CheckOut
  | _, _, [] => noResult
  | prev, i, (s, space) :: rest =>
    if space then
      match prev with
      | some p =>
        if s.head? ≠ some '-' || knownSymbol m p then
          result 'W' 7 (cs!"Argument no. " ++ natToStr (i - 1) ++ cs!" '" ++ p ++
            cs!" ...' of call to interface " ++ call ++ cs!" contains unquoted space")
        else spaceLoop m call (some s) i rest
      | none => spaceLoop m call (some s) i rest
    else spaceLoop m call (some s) (i + 1) rest

/-- te_checks.c:533-568 `check_space_if_call_arg` (W-007). -/
def checkSpaceIfCallArg (m : Maps) (node : Loc) : CheckOut :=
  match node.data with
  | .ifCall d => spaceLoop m d.name none 1 d.args
  | _ => .ub

/-- te_checks.c:582-590: the loop over the permissions. -/
def riskyLoop : List Str → CheckOut
  | [] => noResult
  | p :: ps =>
    if strcmp p cs!"*" = 0 || strcmp p cs!"~" = 0 then
      result 'W' 8 cs!"Allow rule with complement or wildcard permission"
    else riskyLoop ps

/-- te_checks.c:570-593 `check_risky_allow_perm` (W-008). -/
def checkRiskyAllowPerm (node : Loc) : CheckOut :=
  match node.data with
  | .av d => if d.flavor ≠ .allow then noResult else riskyLoop d.perms
  | _ => .ub

/-- te_checks.c:602-608: the length of the file name without its extension. -/
def stemLen (filename : Str) : Nat :=
  match strrchr '.' filename with
  | some ext => filename.length - ext.length
  | none => filename.length

/-- te_checks.c:595-618 `check_module_file_name_mismatch` (W-009). -/
def checkModuleFileNameMismatch (data : CheckData) (node : Loc) : CheckOut :=
  match node.data with
  | .header d =>
    let len := stemLen data.filename
    if d.moduleName.length ≠ len || d.moduleName.take len ≠ data.filename.take len then
      result 'W' 9 (cs!"Module name " ++ d.moduleName ++ cs!" does not match file name " ++
        data.filename)
    else noResult
  | _ => .ub

/-- util.h:66-77 `RefPol_module_abbreviations`. -/
def moduleAbbreviations : List (Str × Str) :=
  [(cs!"fs", cs!"filesystem"), (cs!"corecmd", cs!"corecommands"), (cs!"seutil", cs!"selinuxutil"),
   (cs!"libs", cs!"libraries"), (cs!"dev", cs!"devices"), (cs!"term", cs!"terminal"),
   (cs!"corenet", cs!"corenetwork"), (cs!"auth", cs!"authlogin"), (cs!"userdom", cs!"userdomain"),
   (cs!"sysnet", cs!"sysnetwork")]

/-- util.h:79-82 `RefPol_macros_with_module_prefix`. -/
def macrosWithModulePrefix : List Str :=
  [cs!"domain_auto_transition_pattern", cs!"domain_transition_pattern"]

/-- te_checks.c:623-636: the body of the loop for the prefix `searchMod`. -/
def isModulePrefix (m : Maps) (searchMod : Str) : Bool :=
  (m.lookUpMod searchMod).isSome ||
  moduleAbbreviations.any fun e => strcmp searchMod e.1 == 0 && (m.lookUpMod e.2).isSome

/-- te_checks.c:620-641 `starts_with_module_prefix`; `before` is the part of the name in
front of `rest`. The loop stops at each underscore. -/
def startsWithModulePrefix (m : Maps) (before : Str) : Str → Bool
  | [] => false
  | c :: rest =>
    if c = '_' then
      if isModulePrefix m before then true else startsWithModulePrefix m (before ++ [c]) rest
    else startsWithModulePrefix m (before ++ [c]) rest

/-- te_checks.c:643-670 `check_unknown_interface_call` (W-010). -/
def checkUnknownInterfaceCall (m : Maps) (node : Loc) : CheckOut :=
  match node.data with
  | .ifCall d =>
    if macrosWithModulePrefix.any (strcmp d.name · == 0) then noResult
    else if !startsWithModulePrefix m [] d.name then noResult
    else if (m.lookUpIf d.name).isSome then noResult
    else result 'W' 10 (cs!"Call to " ++ d.name ++ cs!" can not be referenced to any interface")
  | _ => .ub

/-! ## E-006 – E-010 -/

/-- te_checks.c:672-686 `check_declaration_interface_nameclash` (E-006). -/
def checkDeclarationInterfaceNameclash (m : Maps) (node : Loc) : CheckOut :=
  match node.data with
  | .decl d =>
    if (m.lookUpIf d.name).isSome then
      result 'E' 6 (cs!"Declaration with name " ++ d.name ++
        cs!" clashes with same named interface")
    else noResult
  | _ => .ub

/-- te_checks.c:710-735: the loop over the permissions. -/
def unknownPermLoop (m : Maps) : List Str → CheckOut
  | [] => noResult
  | p :: ps =>
    if strcmp p cs!"*" = 0 || strcmp p cs!"~" = 0 then unknownPermLoop m ps
    else if (cs!"all_").isPrefixOf p && endsWith p cs!"_perms" then unknownPermLoop m ps
    else if (m.lookUpDecl p .perm).isSome then unknownPermLoop m ps
    else if (m.lookUpPermmacro p).isSome then unknownPermLoop m ps
    else result 'E' 7 (cs!"Unknown permission " ++ p ++ cs!" used")

/-- te_checks.c:705-738 `check_unknown_permission` (E-007). -/
def checkUnknownPermission (m : Maps) (node : Loc) : CheckOut :=
  match node.data with
  | .av d => unknownPermLoop m d.perms
  | _ => .ub

/-- te_checks.c:773-790: the loop over the classes. -/
def unknownClassLoop (m : Maps) : List Str → CheckOut
  | [] => noResult
  | c :: cs =>
    if c.head? = some '$' && ((c[1]?).map Char.isDigit).getD false then unknownClassLoop m cs
    else if endsWith c cs!"_class_set" then unknownClassLoop m cs
    else if (m.lookUpDecl c .cls).isSome then unknownClassLoop m cs
    else result 'E' 8 (cs!"Unknown class " ++ c ++ cs!" used")

/-- te_checks.c:752-793 `check_unknown_class` (E-008). -/
def checkUnknownClass (m : Maps) (node : Loc) : CheckOut :=
  match node.data with
  | .av d => unknownClassLoop m d.objectClasses
  | .rt d => unknownClassLoop m d.objectClasses
  | .tt d => unknownClassLoop m d.objectClasses
  | _ => internal cs!"Invalid node type for `check_unknown_class`"

/-- te_checks.c:795-813 `check_empty_block` (E-009). -/
def checkEmptyBlock (node : Loc) : CheckOut :=
  if node.focus.children.all (fun t => t.info.flavor == .startBlock || t.info.flavor == .comment
      || t.info.flavor == .semicolon) then
    result 'E' 9 cs!"Empty block found"
  else noResult

/-- te_checks.c:815-824 `is_ifelse_argument`, given the pointers `cur`, `cur->parent`, … . -/
def isIfelseArgument : List Loc → Option Loc
  | cur :: parent :: rest =>
    if cur.flavor = .m4Arg && parent.flavor = .ifelse then some cur
    else isIfelseArgument (parent :: rest)
  | _ => none

/-- te_checks.c:836-850: is the word a comparison argument of `ifelse`? The loop counts the
nodes before the argument. -/
def isComparisonArgument (node : Loc) : Bool :=
  match isIfelseArgument (node :: node.ancestors) with
  | none => false
  | some arg =>
    arg.next?.isSome && (arg.lefts.length % 3 == 1 || arg.lefts.length % 3 == 2)

/-- te_checks.c:826-856 `check_stray_word` (E-010). -/
def checkStrayWord (data : CheckData) (node : Loc) : CheckOut :=
  match node.data with
  | .plain _ (some name) =>
    if strInSl name data.config.customTeSimpleMacros then noResult
    else if isComparisonArgument node then noResult
    else result 'E' 10 (cs!"Found stray word " ++ name ++ cs!". If it is a simple m4 macro please add an selint-disable comment or ignore in the SELint configuration file.")
  | _ => .ub

end Selint
