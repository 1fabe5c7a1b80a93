import Verif.Model.HeapParse
import Verif.Model.Maps
import Verif.Model.Template
import Verif.Model.Grammar
/-!
# The parser's actions (parse_functions.c, parse.y)

`exec` runs the semantic actions of a derivation in the order in which an LALR parser runs
them. Every change of the tree goes through `Loc.grow`, so what is proved about the parser's
pointer operations (`C10_parser`, `C11_parser`) applies to every run.

Simplifications: `malloc` and `strdup` succeed. Line numbers are part of the derivation.
-/

namespace Selint

/-- The parser's variables: `cur` (parse.y), the symbol tables and `module_name`
(parse_functions.c:27; `parse_one_file`, runner.c:37-40, always sets it). `rets` records what
`insert_interface_call` returned, in order; the actions ignore these values. -/
structure PState where
  loc : Loc
  maps : Maps
  module : Str
  rets : List SelintError

namespace PState

/-- Change the tree. -/
def grow (st : PState) (op : TreeOp) : PState := { st with loc := st.loc.grow op }

/-- `insert_policy_node_next(*cur, …); *cur = (*cur)->next;` -/
def statement (st : PState) (data : NodeData) (line : Nat) : PState :=
  st.grow (.statement ⟨data, none, line⟩)

/-- `(*cur)->parent && (*cur)->parent->flavor == NODE_INTERFACE_DEF`, and then
`(*cur)->parent->data.str`. (Interface definitions always carry a name:
`begin_interface_def`.) -/
def parentInterface (st : PState) : Option Str :=
  match st.loc.parent? with
  | none => none
  | some p =>
    match p.data with
    | .plain .interfaceDef s => s
    | _ => none

/-- parse_functions.c:29-56 `insert_header`. -/
def insertHeader (st : PState) (name : Str) (fl : HeaderFlavor) (line : Nat) : PState :=
  st.statement (.header ⟨fl, name⟩) line

/-- parse_functions.c:71-83 `insert_comment`. -/
def insertComment (st : PState) (line : Nat) : PState := st.statement (.plain .comment none) line

/-- parse_functions.c:92-115: the table entries for a declaration. -/
def declareName (st : PState) (fl : DeclFlavor) (name : Str) : PState :=
  if st.loc.isInRequire then st
  else
    match st.loc.getNameIfInTemplate with
    | some t => { st with maps := st.maps.insertTemplateDecl t fl name }
    | none =>
      if name.head? = some '$' then st
      else { st with maps := st.maps.insertDecl name st.module fl }

/-- parse_functions.c:85-142 `insert_declaration`. -/
def insertDeclaration (st : PState) (fl : DeclFlavor) (name : Str) (attrs : List Str) (line : Nat) :
    PState :=
  (st.declareName fl name).statement (.decl ⟨fl, name, attrs⟩) line

/-- parse_functions.c:151-175: one alias. -/
def insertAlias (st : PState) (fl : DeclFlavor) (line : Nat) (alias : Str) : PState :=
  let st' : PState :=
    match st.loc.getNameIfInTemplate with
    | some t => { st with maps := st.maps.insertTemplateDecl t fl alias }
    | none => { st with maps := st.maps.insertDecl alias st.module fl }
  st'.grow (.child ⟨.plain .alias (some alias), none, line⟩)

/-- parse_functions.c:144-180 `insert_aliases`. -/
def insertAliases (st : PState) (aliases : List Str) (fl : DeclFlavor) (line : Nat) : PState :=
  aliases.foldl (fun st a => st.insertAlias fl line a) st

/-- parse_functions.c:182-199 `insert_type_alias`. -/
def insertTypeAlias (st : PState) (type : Str) (line : Nat) : PState :=
  st.statement (.plain .typeAlias (some type)) line

/-- parse_functions.c:201-237 `insert_av_rule`. -/
def insertAvRule (st : PState) (d : AvData) (line : Nat) : PState :=
  let st' : PState :=
    match st.parentInterface with
    | some i => if strInSl cs!"associate" d.perms then { st with maps := st.maps.markTransform i } else st
    | none => st
  st'.statement (.av d) line

/-- parse_functions.c:239-273 `insert_xperm_av_rule`. -/
def insertXpermAvRule (st : PState) (d : AvData) (operation : Str) (line : Nat) : PState :=
  st.statement (.xav d operation) line

/-- parse_functions.c:276-298 `insert_role_allow`. -/
def insertRoleAllow (st : PState) (frm to : List Str) (line : Nat) : PState :=
  st.statement (.roleAllow ⟨frm, to⟩) line

/-- parse_functions.c:304-312: is one of the types a parameter? -/
def someParameter : List Str → Bool
  | [] => false
  | s :: rest => if s.head? = some '$' then true else someParameter rest

/-- parse_functions.c:300-332 `insert_role_types`. -/
def insertRoleTypes (st : PState) (role : Str) (types : List Str) (line : Nat) : PState :=
  let st' : PState :=
    match st.parentInterface with
    | some i => if someParameter types then { st with maps := st.maps.markRole i } else st
    | none => st
  st'.statement (.roleTypes ⟨role, types⟩) line

/-- parse_functions.c:334-378 `insert_type_transition`. -/
def insertTypeTransition (st : PState) (d : TtData) (line : Nat) : PState :=
  let st' : PState :=
    if strInSl cs!"process" d.objectClasses then st
    else
      match st.parentInterface with
      | some i => { st with maps := st.maps.markFiletrans i }
      | none => st
  st'.statement (.tt d) line

/-- parse_functions.c:380-411 `insert_role_transition`. -/
def insertRoleTransition (st : PState) (d : RtData) (line : Nat) : PState :=
  st.statement (.rt d) line

/-- parse_functions.c:413-430 `is_filetrans_if_name`. -/
def isFiletransIfName (name : Str) : Bool :=
  if name = cs!"filetrans_pattern" then true
  else if name = cs!"filetrans_add_pattern" then true
  else
    match strrchr '_' name with
    | some suffix => decide (suffix = cs!"_filetrans")
    | none => false

/-- parse_functions.c:441-451: record a call made by a template, or enter the declarations
of the called template. -/
def expandCall (st : PState) (c : IfCallData) : ExpRes :=
  match st.loc.getNameIfInTemplate with
  | some t => .done .success (st.maps.insertTemplateCall t c)
  | none => expandTemplate c.name c.argStrs st.module st.maps

/-- parse_functions.c:432-473 `insert_interface_call`. The bound of `expandTemplate` is never
reached (`C18_terminates`). -/
def insertInterfaceCall (st : PState) (c : IfCallData) (line : Nat) : Res PState :=
  match st.expandCall c with
  | .ub => .ub
  | .fuel => .ub
  | .done e m =>
    let st₁ : PState := { st with maps := m, rets := st.rets ++ [e] }
    if e = .success then
      let st₂ : PState :=
        if isFiletransIfName c.name then
          match st₁.parentInterface with
          | some i => { st₁ with maps := st₁.maps.markFiletrans i }
          | none => st₁
        else st₁
      .ok (st₂.statement (.ifCall c) line)
    else .ok st₁

/-- parse_functions.c:475-491 `insert_permissive_statement`. -/
def insertPermissive (st : PState) (domain : Str) (line : Nat) : PState :=
  st.statement (.plain .permissive (some domain)) line

/-- parse_functions.c:493-509 `insert_semicolon`. -/
def insertSemicolon (st : PState) (line : Nat) : PState := st.statement (.plain .semicolon none) line

/-- parse_functions.c:511-527 `insert_m4simplemacro`. -/
def insertM4SimpleMacro (st : PState) (name : Str) (line : Nat) : PState :=
  st.statement (.plain .m4SimpleMacro (some name)) line

/-- parse_functions.c:529-555 `begin_block`. -/
def beginBlock (st : PState) (data : NodeData) (line : Nat) : PState :=
  st.grow (.openBlock ⟨data, none, line⟩ ⟨.plain .startBlock none, none, line⟩)

/-- parse_functions.c:557-567 `end_block`; the return value says whether the cursor moved. -/
def endBlock (st : PState) (fl : NodeFlavor) : PState := st.grow (.closeBlock fl)

/-- parse_functions.c:637-658 `begin_interface_def`. -/
def beginInterfaceDef (st : PState) (isTemplate : Bool) (name : Str) (line : Nat) : PState :=
  let m := if isTemplate then st.maps.insertTemplate name else st.maps
  let st' : PState := { st with maps := m.insertIf name st.module }
  st'.beginBlock (.plain (if isTemplate then .tempDef else .interfaceDef) (some name)) line

/-- parse_functions.c:660-668 `end_interface_def`. -/
def endInterfaceDef (st : PState) : PState :=
  match st.loc.parent? with
  | none => st
  | some p =>
    if p.info.flavor = .interfaceDef then st.endBlock .interfaceDef else st.endBlock .tempDef

/-- parse_functions.c:670-677 `begin_gen_require`. Simplification: the flag, uninitialised in
C until the end of the block, starts as false; nothing reads it before. -/
def beginGenRequire (st : PState) (line : Nat) : PState := st.beginBlock (.genReq false) line

/-- parse_functions.c:682-684: store the flag. -/
def setUnquoted (unquoted : Bool) (i : NodeInfo) : NodeInfo :=
  match i.data with
  | .genReq _ => { i with data := .genReq unquoted }
  | _ => i

/-- parse_functions.c:679-687 `end_gen_require`. -/
def endGenRequire (st : PState) (unquoted : Bool) : PState :=
  (st.grow (.updateParent (setUnquoted unquoted))).endBlock .genReq

/-- parse_functions.c:743-755: the exceptions a command stands for, if it is one. -/
def commandExceptions (comm : Str) : Option Str :=
  let c := comm.dropWhile (fun c => c ≠ 's')
  if cs!"selint-".isPrefixOf c then
    let d := c.drop 7
    if cs!"disable:".isPrefixOf d then some (d.drop 8) else none
  else none

/-- parse_functions.c:738-757 `save_command`: the new content of the node. -/
def saveCommand (comm : Str) (i : NodeInfo) : NodeInfo :=
  match commandExceptions comm with
  | some e => { i with exceptions := some e }
  | none => i

/-- `save_command(cur, …)`. -/
def command (st : PState) (comm : Str) : PState := st.grow (.update (saveCommand comm))

/-- `save_command(cur->parent, …)`, if the production has a command. -/
def parentCommand (st : PState) : Option Str → PState
  | none => st
  | some c => st.grow (.updateParent (saveCommand c))

/-- parse.y:554, 937, 941: a command that is saved at the end of its block. -/
def lateCommand (st : PState) : Option Str → PState
  | none => st
  | some c => st.command c

/-- util.h:90-106 `RefPol_interface_transforming_suffixes`. -/
def transformSuffixes : List Str :=
  [cs!"_type", cs!"_file", cs!"_domain", cs!"_node", cs!"_agent", cs!"_delivery", cs!"_sender",
    cs!"_boolean", cs!"_content", cs!"_constrained", cs!"_executable", cs!"_exemption",
    cs!"_object", cs!"_mountpoint"]

/-- util.h:107-120 `is_transform_interface`. -/
def isTransformInterface (name : Str) : Bool :=
  match strrchr '_' name with
  | none => false
  | some suffix => strInSl suffix transformSuffixes

/-- parse_functions.c:772-812 `insert_attribute`, `insert_type_attribute`,
`insert_role_attribute`. -/
def insertAttribute (st : PState) (d : AttrData) (line : Nat) : PState :=
  let st' := st.statement (.attr d) line
  match st'.parentInterface with
  | some i =>
    if isTransformInterface i || decide (st'.module = cs!"mls") || decide (st'.module = cs!"mcs") then
      { st' with maps := st'.maps.markTransform i }
    else st'
  | none => st'

end PState

/-! ## Running the actions of a derivation -/

/-- parse.y:349-384: the action of a declaration. -/
def Decl.exec (d : Decl) (line : Nat) (st : PState) : PState :=
  match d with
  | .type n => st.insertDeclaration .type n [] line
  | .typeAttrs n a => st.insertDeclaration .type n a.value line
  | .typeAlias n l => (st.insertDeclaration .type n [] line).insertAliases l.value .type line
  | .typeAliasAttrs n l a =>
    (st.insertDeclaration .type n a.value line).insertAliases l.value .type line
  | .attr n => st.insertDeclaration .attribute n [] line
  | .cls n l => st.insertDeclaration .cls n l.value line
  | .role n => st.insertDeclaration .role n [] line
  | .attributeRole n => st.insertDeclaration .attributeRole n [] line
  | .bool n => st.insertDeclaration .bool n [] line
  | .genBool n _ => st.insertDeclaration .bool n [] line
  | .genTunableQuoted n _ => st.insertDeclaration .bool n [] line
  | .genTunable n _ => st.insertDeclaration .bool n [] line

/-- parse.y:335, 386-423, 483-528, 621-623, 904-906: the actions of the statements with one
node. -/
def Simple.exec (s : Simple) (line : Nat) (st : PState) : Res PState :=
  match s with
  | .decl d => .ok (d.exec line st)
  | .typeAttribute n a => .ok (st.insertAttribute ⟨n, a.value, .type⟩ line)
  | .roleAttribute n a => .ok (st.insertAttribute ⟨n, a.value, .role⟩ line)
  | .typeAlias n l => .ok ((st.insertTypeAlias n line).insertAliases l.value .type line)
  | .rule fl s t c p => .ok (st.insertAvRule ⟨fl, s.value, t.value, c.value, p.value⟩ line)
  | .xrule fl s t c op p =>
    .ok (st.insertXpermAvRule ⟨fl, s.value, t.value, c.value, p.value⟩ op line)
  | .roleAllow f t => .ok (st.insertRoleAllow f.value t.value line)
  | .roleTypes r l => .ok (st.insertRoleTypes r l.value line)
  | .typeTransition s t c d n =>
    .ok (st.insertTypeTransition ⟨s.value, t.value, c.value, d, n, .tt⟩ line)
  | .typeMember s t c d =>
    .ok (st.insertTypeTransition ⟨s.value, t.value, c.value, d, none, .tm⟩ line)
  | .typeChange s t c d =>
    .ok (st.insertTypeTransition ⟨s.value, t.value, c.value, d, none, .tc⟩ line)
  | .rangeTransition s t c r =>
    .ok (st.insertTypeTransition ⟨s.value, t.value, c.value, r.value, none, .rt⟩ line)
  | .roleTransition s t d => .ok (st.insertRoleTransition ⟨s.value, t.value, [], d⟩ line)
  | .roleTransitionClass s t c d =>
    .ok (st.insertRoleTransition ⟨s.value, t.value, c.value, d⟩ line)
  | .call n none => st.insertInterfaceCall ⟨n, []⟩ line
  | .call n (some a) => st.insertInterfaceCall ⟨n, a.value⟩ line
  | .simpleMacro n => .ok (st.insertM4SimpleMacro n line)
  | .permissive n => .ok (st.insertPermissive n line)
  | .semicolon => .ok (st.insertSemicolon line)

mutual
/-- parse.y:572-576. -/
def ReqLines.exec : ReqLines → PState → PState
  | .one l, st => l.exec st
  | .more ls l, st => l.exec (ls.exec st)
/-- parse.y:578-582. -/
def ReqLine.exec : ReqLine → PState → PState
  | .bare s, st => s.exec st
  | .withCommand s c, st => (s.exec st).command c
/-- parse.y:584-619. -/
def ReqStmt.exec : ReqStmt → PState → PState
  | .decls line fl _ _ names, st =>
    names.value.foldl (fun st n => st.insertDeclaration fl n [] line) st
  | .cls line n l, st => st.insertDeclaration .cls n l.value line
  | .ifdef line _ _ _ body, st =>
    (body.exec (st.beginBlock (.plain .ifdef none) line)).endBlock .ifdef
  | .comment, st => st
end

mutual
/-- parse.y:268-272. -/
def Lines.exec : Lines → PState → Res PState
  | .one l, st => l.exec st
  | .more ls l, st => do l.exec (← ls.exec st)
/-- parse.y:274-278. -/
def Line.exec : Line → PState → Res PState
  | .bare s, st => s.exec st
  | .withCommand s c, st => do .ok ((← s.exec st).command c)
/-- parse.y:280-347, 530-570, 635-656, 776-795, 849-852. -/
def Stmt.exec : Stmt → PState → Res PState
  | .silent _, st => .ok st
  | .simple line s, st => s.exec line st
  | .optional line cmd body, st => do
    let st ← body.exec ((st.beginBlock (.plain .optionalPolicy none) line).parentCommand cmd)
    .ok (st.endBlock .optionalPolicy)
  | .optionalEmpty line cmd, st =>
    .ok (((st.beginBlock (.plain .optionalPolicy none) line).parentCommand cmd).endBlock
      .optionalPolicy)
  | .optionalElse line cmd body elseLine els, st => do
    let st ← body.exec ((st.beginBlock (.plain .optionalPolicy none) line).parentCommand cmd)
    let st ← els.exec ((st.endBlock .optionalPolicy).beginBlock (.plain .optionalElse none) elseLine)
    .ok (st.endBlock .optionalElse)
  | .genRequire line cmd cmd' body, st =>
    .ok (((body.exec ((st.beginGenRequire line).parentCommand cmd)).endGenRequire false).lateCommand cmd')
  | .genRequireUnquoted line cmd body, st =>
    .ok ((body.exec ((st.beginGenRequire line).parentCommand cmd)).endGenRequire true)
  | .require line cmd body, st =>
    .ok ((body.exec ((st.beginBlock (.plain .require none) line).parentCommand cmd)).endBlock .require)
  | .ifdef line _ _ args, st => do
    let st ← args.exec (st.beginBlock (.plain .ifdef none) line)
    .ok (st.endBlock .ifdef)
  | .ifelse line args, st => do
    let st ← args.exec (st.beginBlock (.plain .ifelse none) line)
    .ok (st.endBlock .ifelse)
  | .userdebugOrEng body, st => body.exec st
  | .tunable line _ _ args, st => do
    let st ← args.exec (st.beginBlock (.plain .tunablePolicy none) line)
    .ok (st.endBlock .tunablePolicy)
  | .boolean line cmd _ body, st => do
    let st ← body.exec ((st.beginBlock (.plain .booleanPolicy none) line).parentCommand cmd)
    .ok (st.endBlock .booleanPolicy)
  | .booleanElse line cmd _ body els, st => do
    let st ← body.exec ((st.beginBlock (.plain .booleanPolicy none) line).parentCommand cmd)
    let st ← els.exec st
    .ok (st.endBlock .booleanPolicy)
  | .define line _ _ _, st =>
    .ok ((st.beginBlock (.plain .define none) line).endBlock .define)
/-- parse.y:706-710. -/
def M4Args.exec : M4Args → PState → Res PState
  | .one line a, st => do
    let st ← a.exec (st.beginBlock (.plain .m4Arg none) line)
    .ok (st.endBlock .m4Arg)
  | .more as line a, st => do
    let st ← as.exec st
    let st ← a.exec (st.beginBlock (.plain .m4Arg none) line)
    .ok (st.endBlock .m4Arg)
/-- parse.y:712-720. -/
def M4Argument.exec : M4Argument → PState → Res PState
  | .empty, st => .ok st
  | .emptyQuoted, st => .ok st
  | .quoted body, st => body.exec st
  | .word _, st => .ok st
end

/-- parse.y:934-942: the body of a definition. -/
def execBody : Option Lines → PState → Res PState
  | none, st => .ok st
  | some b, st => b.exec st

/-- parse.y:934-962. -/
def IfDef.exec (d : IfDef) (st : PState) : Res PState := do
  let st ← execBody d.body (st.beginInterfaceDef d.isTemplate d.name d.line)
  .ok (st.endInterfaceDef.lateCommand d.cmd)

/-- parse.y:928-932. -/
def IfLine.exec (l : IfLine) (st : PState) : Res PState :=
  match l with
  | .defn d => d.exec st
  | .comment line => .ok (st.insertComment line)

/-- parse.y:922-926: the lines after the first definition. -/
def execIfLines : List IfLine → PState → Res PState
  | [], st => .ok st
  | l :: ls, st => do execIfLines ls (← l.exec st)

/-- parse.y:229-237: leading comments. -/
def execComments (lines : List Nat) (st : PState) : PState :=
  lines.foldl PState.insertComment st

/-- parse.y:983-1004: the table entry for a support definition. -/
def SptDef.exec (d : SptDef) (m : Maps) : Maps :=
  match d.warn with
  | none => if endsWith d.name cs!"_perms" then m.insertPermmacro d.name d.list.value else m
  | some _ => m

/-- The module name under which the access vectors are entered (parse.y:1039, 1073). -/
def avFileName : Str := cs!"__av_file__"

/-- parse.y:1062-1076: the table entries for a permission list. -/
def AvPerms.exec (p : AvPerms) (m : Maps) : Maps :=
  p.all.foldl (fun m o =>
    match o with
    | none => m
    | some s => m.insertDecl s avFileName .perm) m

/-- parse.y:1026-1060: the table entries for an access vector definition. The permissions are
entered first. -/
def AvDef.exec (d : AvDef) (m : Maps) : Maps :=
  match d with
  | .cls n p => (p.exec m).insertDecl n avFileName .cls
  | .inherits n _ => m.insertDecl n avFileName .cls
  | .inheritsPerms n _ p => (p.exec m).insertDecl n avFileName .cls
  | .common _ p => p.exec m

/-- parse.y:1034, 1042, 1050: only class definitions check the kind of the file. -/
def AvDef.isClass : AvDef → Bool
  | .common _ _ => false
  | _ => true

/-- parse.y:1014-1024: a later line of an access vector file. -/
def execAvLine (m : Maps) : Option AvDef → Maps
  | none => m
  | some d => d.exec m

/-- parse.y:971-981: a later line of a support file. -/
def execSptLine (m : Maps) : Option SptDef → Maps
  | none => m
  | some d => d.exec m

/-- parse.y:1177-1184: the parser's variables at the start of a file. -/
def PState.init (expected : PlainFlavor) (mod : Str) (m : Maps) : PState :=
  ⟨⟨.mk ⟨.plain expected none, none, 0⟩ [], [], [], []⟩, m, mod, []⟩

/-- parse.y:200-221, 1177-1198 `yyparse_wrapper` for a file with the given derivation;
`expected` is the flavor for which the file was opened. `none`: a check of `expected` fails
and the file is rejected (parse.y:242, 250, 946, 985, 998, 1034, 1042, 1050). -/
def SourceFile.exec (f : SourceFile) (expected : PlainFlavor) (mod : Str) (m : Maps) :
    Res (Option PState) :=
  let st := PState.init expected mod m
  match f with
  | .empty => .ok (some (st.grow (.update fun i => { i with data := .plain .empty none })))
  | .te cs h b =>
    if expected ≠ .teFile then .ok none
    else do
      let st := (execComments cs st).insertHeader h.name (if h.isMacro then .macro else .bare) h.line
      .ok (some (← b.exec st))
  | .iface cs d ls =>
    if expected ≠ .ifFile then .ok none
    else do
      let st ← d.exec (execComments cs st)
      .ok (some (← execIfLines ls st))
  | .spt cs d ls =>
    if expected ≠ .sptFile then .ok none
    else
      let st := execComments cs st
      .ok (some { st with maps := ls.foldl execSptLine (d.exec st.maps) })
  | .av cs d ls =>
    if expected ≠ .avFile ∧ (some d :: ls).any (fun o => o.any AvDef.isClass) then .ok none
    else
      let st := execComments cs st
      .ok (some { st with maps := ls.foldl execAvLine (d.exec st.maps) })
  | .comments c cs => .ok (some (execComments (c :: cs) st))

end Selint
