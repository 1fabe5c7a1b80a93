import Verif.Model.ParseInMemory
/-!
# The parser that bison makes (parse.y), move by move

The productions of parse.y with their actions as a table, and a machine with bison's stack of
semantic values: it reads a token, shifts it, or replaces the right-hand side of a production
on top of the stack by its left-hand side while running the action. When it gives up, it
runs the destructors of what is on the stack. So here, in contrast to `ParseInMemory.lean`, the
input need not be a correct file.

Simplifications: which of the possible moves bison takes is left open, so the tables of the
automaton are not part of the model and whatever is shown holds for every sequence of moves.
Where the automaton matters to an action (`selinux_file: %empty`, which is reduced only when
nothing has been shifted) the table says so. `bare_line: error` (parse.y:337-346) only leads to
`YYABORT`; popping the stack up to it and `YYABORT` together destroy the whole stack, which is
one step here. Line numbers are arbitrary. `yyerror` gives back what it allocates and is left
out.
-/

namespace Selint
namespace Lr

/-! ## Symbols -/

/-- parse.y:83-183: the kinds of tokens. -/
inductive Term where
  | kw (k : Keyword)
  | p (p : Punct)
  | versionNo | number | string | numString | ipv4 | ipv6 | quoted | fileType | command | comment
  | unknown
  | eof
  deriving DecidableEq, Repr

/-- parse.y:199-1076: the nonterminals, and one for each action in the middle of a production
(bison's `$@1`, …). -/
inductive Nt where
  | selinuxFile | tePolicy | comments | comment | header | headerVersion | body | lines | line
  | bareLine | declaration | typeDeclaration | boolDeclaration | typeAlias | typeAttribute
  | roleAttribute | rule | avType | xpermRule | xpermAvType | xpermList | xpermItems | xpermItem
  | stringList | strings | slItem | commaStringList | roleAllow | roleTypes | typeTransition
  | rangeTransition | roleTransition | interfaceCall | optionalBlock | optionalOpen | require
  | genRequireBegin | requireLines | requireLine | requireBare | m4SimpleMacro | m4Call | ifdef
  | ifOrIfn | ifelse | refpolicywarn | userdebugOrEng | arbitraryM4String | m4StringElem
  | condition | m4Args | m4Argument | arg | args | mlsRange | mlsLevel | mlsComponent | condExpr
  | booleanBlock | booleanOpen | tunableBlock | genfscon | genfsconContext | sid | portcon
  | portRange | netifcon | nodecon | twoIpAddrs | fsUse | define | defineName | defineContent
  | defineExpansion | maybeStringComma | genUser | context | rawContext | permissive | typebounds
  | ifFile | ifLines | ifLine | interfaceDef | startInterface | endInterface | ifKeyword
  | sptFile | sptLines | sptLine | supportDef | avFile | avContents | avContent | avDefinition
  | avClassDefinition | avCommonDefinition | avPermissionList | avPermissions | avPermission
  | midOptionalEnd | midOptionalElse | midRequire | midRequireCommand | midReqIfdefQuoted
  | midReqIfdef | midIfdef | midIfelse | midFirstArg | midNextArg | midTunableQuoted | midTunable
  | midDefine
  deriving DecidableEq, Repr

/-- A symbol of the grammar. -/
inductive Sym where
  | t (t : Term)
  | n (n : Nt)
  deriving DecidableEq, Repr

/-- What the semantic value of a symbol is (parse.y:83-90, 176-194): nothing, a string, a list
of strings, a list of strings in which words may be marked (`args`), the kind of a rule, or the
kind of a definition. The string of a command has a kind of its own. -/
inductive Kind where
  | none | word | command | names | marked | av | ifKind
  deriving DecidableEq, Repr

/-- parse.y:83-90. -/
def Term.kind : Term → Kind
  | .versionNo | .number | .string | .numString | .ipv4 | .ipv6 | .quoted => .word
  | .command => .command
  | _ => .none

/-- parse.y:176-194. -/
def Nt.kind : Nt → Kind
  | .stringList | .commaStringList | .strings | .xpermList | .xpermItems | .arg => .names
  | .args => .marked
  | .slItem | .xpermItem | .mlsRange | .mlsLevel | .mlsComponent | .maybeStringComma => .word
  | .avType | .xpermAvType => .av
  | .ifKeyword => .ifKind
  | _ => .none

/-- parse.y:83-90, 176-194. -/
def Sym.kind : Sym → Kind
  | .t x => x.kind
  | .n x => x.kind

/-- What a destructor does. -/
inductive Destructor where
  | nothing | free | freeList
  deriving DecidableEq

/-- parse.y:92-98, 196-197: `%destructor`. There is none for `SELINT_COMMAND`, and none for
`maybe_string_comma`. -/
def Sym.destructor : Sym → Destructor
  | .t .string | .t .numString | .t .ipv4 | .t .ipv6 | .t .number | .t .quoted | .t .versionNo =>
    .free
  | .n .mlsComponent | .n .mlsLevel | .n .mlsRange | .n .slItem | .n .xpermItem => .free
  | .n .arg | .n .args | .n .commaStringList | .n .stringList | .n .strings | .n .xpermList
  | .n .xpermItems => .freeList
  | _ => .nothing

/-- A semantic value. -/
inductive Val where
  | none
  | str (a : Addr)
  | list (p : Option Addr)
  | av (fl : AvFlavor)
  | ifKind (isTemplate : Bool)

/-! ## Actions -/

/-- What is done before `YYERROR`: `free($n)`, `free_string_list($n)`. -/
inductive Release where
  | free (n : Nat)
  | freeList (n : Nat)
  deriving DecidableEq

/-- The statements that the actions of parse.y:199-1076 are made of; a number is the position
of a symbol, as in `$1`. -/
inductive Cmd where
  /-- `$$ = $n`, also where bison does this by default -/
  | copy (n : Nat)
  /-- `$$ = strdup(s)` (parse.y:446, 877) -/
  | text (s : Str)
  /-- `$$ = strdup($n); free($n);` (parse.y:762) -/
  | dup (n : Nat)
  /-- a dash and `$n`, which is freed (parse.y:468-472) -/
  | minus (n : Nat)
  /-- `$n`, the character and `$k`, which are freed (parse.y:744-747, 755-758, 764-767) -/
  | join (c : Char) (n k : Nat)
  /-- `$$ = sl_from_str(s)` (parse.y:456, 729) -/
  | single (s : Str)
  /-- `$$ = sl_from_str_consume($n)` -/
  | consume (n : Nat)
  /-- `$$ = sl_from_str("~"); $$->next = $n;` (parse.y:428, 452) -/
  | tilda (n : Nat)
  /-- `$$ = concat_string_lists($n, sl_from_str($k)); free($k);` (parse.y:434, 460, 478) -/
  | append (n k : Nat)
  /-- `$$ = concat_string_lists($n, $k)` (parse.y:735) -/
  | concat (n k : Nat)
  /-- the word `$k`, marked, at the end of `$n` (parse.y:737-740) -/
  | space (n k : Nat)
  /-- `$$ = AV_RULE_…` (parse.y:401-409, 415-423) -/
  | av (fl : AvFlavor)
  /-- `$$ = NODE_INTERFACE_DEF`, `$$ = NODE_TEMP_DEF` (parse.y:958-962) -/
  | ifKind (isTemplate : Bool)
  /-- `free($n)` -/
  | free (n : Nat)
  /-- `free_string_list($n)` -/
  | freeList (n : Nat)
  /-- `if (expected_node_flavor != fl) { …; YYERROR; }` -/
  | expect (fl : PlainFlavor) (first : List Release)
  /-- `if ($n != AV_RULE_ALLOW) { …; YYERROR; }` (parse.y:486-491) -/
  | expectAllow (n : Nat) (first : List Release)
  /-- `cur->flavor = NODE_EMPTY` (parse.y:202) -/
  | setEmpty
  /-- `insert_comment(&cur, …)` -/
  | insertComment
  /-- `insert_semicolon(&cur, …)` -/
  | insertSemicolon
  /-- `insert_header(&cur, $n, fl, …)` -/
  | insertHeader (fl : HeaderFlavor) (n : Nat)
  /-- `insert_declaration(&cur, fl, $n, NULL, …)` -/
  | declare (fl : DeclFlavor) (n : Nat)
  /-- `insert_declaration(&cur, fl, $n, $k, …)` -/
  | declareWith (fl : DeclFlavor) (n k : Nat)
  /-- `insert_aliases(&cur, $n, DECL_TYPE, …)` -/
  | insertAliases (n : Nat)
  /-- `insert_type_alias(&cur, $n, …)` -/
  | insertTypeAlias (n : Nat)
  /-- `insert_type_attribute`, `insert_role_attribute` -/
  | insertAttribute (fl : AttrFlavor) (n k : Nat)
  /-- `insert_av_rule(&cur, $a, $s, $t, $c, $p, …)` -/
  | insertAvRule (a s t c p : Nat)
  /-- `insert_xperm_av_rule(&cur, $a, $s, $t, $c, $o, $p, …)` -/
  | insertXpermAvRule (a s t c o p : Nat)
  /-- `insert_role_allow(&cur, $n, $k, …)` -/
  | insertRoleAllow (n k : Nat)
  /-- `insert_role_types(&cur, $n, $k, …)` -/
  | insertRoleTypes (n k : Nat)
  /-- `insert_type_transition(&cur, fl, $s, $t, $c, $d, NULL, …)` -/
  | insertTransition (fl : TtFlavor) (s t c d : Nat)
  /-- `insert_type_transition(&cur, TT_TT, $s, $t, $c, $d, $n, …)` -/
  | insertNamedTransition (s t c d n : Nat)
  /-- `insert_role_transition(&cur, $s, $t, NULL, $d, …)` -/
  | insertRoleTransition (s t d : Nat)
  /-- `insert_role_transition(&cur, $s, $t, $c, $d, …)` -/
  | insertRoleTransitionClass (s t c d : Nat)
  /-- `insert_interface_call(&cur, $n, $k, …)` -/
  | insertCall (n k : Nat)
  /-- `insert_interface_call(&cur, $n, NULL, …)` -/
  | insertCallNoArgs (n : Nat)
  /-- `insert_m4simplemacro(&cur, $n, …)` -/
  | insertM4SimpleMacro (n : Nat)
  /-- `insert_permissive_statement(&cur, $n, …)` -/
  | insertPermissive (n : Nat)
  /-- `begin_…(&cur, …)` of a block without data -/
  | beginBlock (fl : PlainFlavor)
  /-- `end_…(&cur)` of such a block -/
  | endBlock (fl : NodeFlavor)
  /-- `begin_gen_require(&cur, …)` -/
  | beginGenRequire
  /-- `end_gen_require(&cur, b)` -/
  | endGenRequire (b : Bool)
  /-- `begin_interface_def(&cur, $n, $k, …)` -/
  | beginInterfaceDef (n k : Nat)
  /-- `end_interface_def(&cur)` -/
  | endInterfaceDef
  /-- `save_command(cur, $n)` -/
  | saveCommand (n : Nat)
  /-- `save_command(cur->parent, $n)` -/
  | saveParent (n : Nat)
  /-- `for (iter = $n; iter; iter = iter->next) insert_declaration(…)` -/
  | declareAll (fl : DeclFlavor) (n : Nat)
  /-- `insert_into_decl_map($n, "__av_file__", fl)` -/
  | insertAv (fl : DeclFlavor) (n : Nat)
  /-- `if (ends_with($n, …, "_perms", …)) insert_into_permmacros_map($n, $k); else
  free_string_list($k);` (parse.y:991-995) -/
  | insertMacro (n k : Nat)
  deriving DecidableEq

/-- A production. For an action in the middle of one, `before` are the symbols to its left,
whose values it can use, and there is no right-hand side. -/
structure Rule where
  lhs : Nt
  rhs : List Sym
  action : List Cmd
  before : List Sym := []
  /-- it is used only when nothing has been shifted -/
  onlyFirst : Bool := false
  deriving DecidableEq

/-- Shorthand: a reserved word. -/
abbrev K (k : Keyword) : Sym := .t (.kw k)
/-- Shorthand: punctuation. -/
abbrev P (p : Punct) : Sym := .t (.p p)
/-- Shorthand: `STRING`. -/
abbrev str : Sym := .t .string
/-- Shorthand: `(`. -/
abbrev op : Sym := P .openParen
/-- Shorthand: `)`. -/
abbrev cl : Sym := P .closeParen
/-- Shorthand: `,`. -/
abbrev co : Sym := P .comma
/-- Shorthand: `;`. -/
abbrev sc : Sym := P .semicolon
/-- Shorthand: `:`. -/
abbrev cn : Sym := P .colon
/-- Shorthand: `` ` ``. -/
abbrev bt : Sym := P .backtick
/-- Shorthand: `'`. -/
abbrev sq : Sym := P .singleQuote
/-- Shorthand: `{`. -/
abbrev lc : Sym := P .openCurly
/-- Shorthand: `}`. -/
abbrev rc : Sym := P .closeCurly
/-- Shorthand: `SELINT_COMMAND`. -/
abbrev cmd : Sym := .t .command

/-- parse.y:200-262: files, comments, headers. -/
def fileRules : List Rule := [
  ⟨.selinuxFile, [], [.setEmpty], [], true⟩,
  ⟨.selinuxFile, [.n .tePolicy], [], [], false⟩,
  ⟨.selinuxFile, [.n .comments, .n .tePolicy], [], [], false⟩,
  ⟨.selinuxFile, [.n .ifFile], [], [], false⟩,
  ⟨.selinuxFile, [.n .comments, .n .ifFile], [], [], false⟩,
  ⟨.selinuxFile, [.n .sptFile], [], [], false⟩,
  ⟨.selinuxFile, [.n .comments, .n .sptFile], [], [], false⟩,
  ⟨.selinuxFile, [.n .avFile], [], [], false⟩,
  ⟨.selinuxFile, [.n .comments, .n .avFile], [], [], false⟩,
  ⟨.selinuxFile, [.n .comments], [], [], false⟩,
  ⟨.tePolicy, [.n .header, .n .body], [], [], false⟩,
  ⟨.comments, [.n .comment], [], [], false⟩,
  ⟨.comments, [.n .comment, .n .comments], [], [], false⟩,
  ⟨.comment, [.t .comment], [.insertComment], [], false⟩,
  ⟨.header, [K .policyModule, op, str, co, .n .headerVersion, cl],
    [.expect .teFile [.free 3], .insertHeader .macro 3, .free 3], [], false⟩,
  ⟨.header, [K .module, str, .n .headerVersion, sc],
    [.expect .teFile [.free 2], .insertHeader .bare 2, .free 2], [], false⟩,
  ⟨.headerVersion, [.t .versionNo], [.free 1], [], false⟩,
  ⟨.headerVersion, [.t .number], [.free 1], [], false⟩]

/-- parse.y:264-336: lines. -/
def lineRules : List Rule := [
  ⟨.body, [.n .lines], [], [], false⟩,
  ⟨.lines, [.n .lines, .n .line], [], [], false⟩,
  ⟨.lines, [.n .line], [], [], false⟩,
  ⟨.line, [.n .bareLine], [], [], false⟩,
  ⟨.line, [.n .bareLine, cmd], [.saveCommand 2, .free 2], [], false⟩,
  ⟨.bareLine, [.n .declaration], [], [], false⟩,
  ⟨.bareLine, [.n .typeAttribute], [], [], false⟩,
  ⟨.bareLine, [.n .roleAttribute], [], [], false⟩,
  ⟨.bareLine, [.n .typeAlias], [], [], false⟩,
  ⟨.bareLine, [.n .rule], [], [], false⟩,
  ⟨.bareLine, [.n .xpermRule], [], [], false⟩,
  ⟨.bareLine, [.n .roleAllow], [], [], false⟩,
  ⟨.bareLine, [.n .roleTypes], [], [], false⟩,
  ⟨.bareLine, [.n .typeTransition], [], [], false⟩,
  ⟨.bareLine, [.n .rangeTransition], [], [], false⟩,
  ⟨.bareLine, [.n .roleTransition], [], [], false⟩,
  ⟨.bareLine, [.n .interfaceCall], [], [], false⟩,
  ⟨.bareLine, [.n .optionalBlock], [], [], false⟩,
  ⟨.bareLine, [.n .require], [], [], false⟩,
  ⟨.bareLine, [.n .m4Call], [], [], false⟩,
  ⟨.bareLine, [.n .m4SimpleMacro], [], [], false⟩,
  ⟨.bareLine, [.n .condExpr], [], [], false⟩,
  ⟨.bareLine, [.n .genfscon], [], [], false⟩,
  ⟨.bareLine, [.n .sid], [], [], false⟩,
  ⟨.bareLine, [.n .portcon], [], [], false⟩,
  ⟨.bareLine, [.n .netifcon], [], [], false⟩,
  ⟨.bareLine, [.n .nodecon], [], [], false⟩,
  ⟨.bareLine, [.n .fsUse], [], [], false⟩,
  ⟨.bareLine, [.n .define], [], [], false⟩,
  ⟨.bareLine, [.n .genUser], [], [], false⟩,
  ⟨.bareLine, [.n .permissive], [], [], false⟩,
  ⟨.bareLine, [.n .typebounds], [], [], false⟩,
  ⟨.bareLine, [sc], [.insertSemicolon], [], false⟩,
  ⟨.bareLine, [.t .comment], [], [], false⟩]

/-- parse.y:349-396: declarations, aliases, attributes. -/
def declRules : List Rule := [
  ⟨.declaration, [.n .typeDeclaration], [], [], false⟩,
  ⟨.declaration, [K .attribute, str, sc], [.declare .attribute 2, .free 2], [], false⟩,
  ⟨.declaration, [K .cls, str, .n .stringList, sc], [.declareWith .cls 2 3, .free 2], [], false⟩,
  ⟨.declaration, [K .role, str, sc], [.declare .role 2, .free 2], [], false⟩,
  ⟨.declaration, [K .attributeRole, str, sc], [.declare .attributeRole 2, .free 2], [], false⟩,
  ⟨.declaration, [.n .boolDeclaration], [], [], false⟩,
  ⟨.typeDeclaration, [K .type, str, sc], [.declare .type 2, .free 2], [], false⟩,
  ⟨.typeDeclaration, [K .type, str, co, .n .commaStringList, sc],
    [.declareWith .type 2 4, .free 2], [], false⟩,
  ⟨.typeDeclaration, [K .type, str, K .alias, .n .stringList, sc],
    [.declare .type 2, .free 2, .insertAliases 4], [], false⟩,
  ⟨.typeDeclaration, [K .type, str, K .alias, .n .stringList, co, .n .commaStringList, sc],
    [.declareWith .type 2 6, .free 2, .insertAliases 4], [], false⟩,
  ⟨.boolDeclaration, [K .bool, str, sc], [.declare .bool 2, .free 2], [], false⟩,
  ⟨.boolDeclaration, [K .genBool, op, str, co, str, cl],
    [.declare .bool 3, .free 3, .free 5], [], false⟩,
  ⟨.boolDeclaration, [K .genTunable, op, bt, str, sq, co, str, cl],
    [.declare .bool 4, .free 4, .free 7], [], false⟩,
  ⟨.boolDeclaration, [K .genTunable, op, str, co, str, cl],
    [.declare .bool 3, .free 3, .free 5], [], false⟩,
  ⟨.typeAlias, [K .typealias, str, K .alias, .n .stringList, sc],
    [.insertTypeAlias 2, .insertAliases 4, .free 2], [], false⟩,
  ⟨.typeAttribute, [K .typeAttribute, str, .n .commaStringList, sc],
    [.insertAttribute .type 2 3, .free 2], [], false⟩,
  ⟨.roleAttribute, [K .roleAttribute, str, .n .commaStringList, sc],
    [.insertAttribute .role 2 3, .free 2], [], false⟩]

/-- parse.y:397-481: rules, lists. -/
def ruleRules : List Rule := [
  ⟨.rule, [.n .avType, .n .stringList, .n .stringList, cn, .n .stringList, .n .stringList, sc],
    [.insertAvRule 1 2 3 5 6], [], false⟩,
  ⟨.avType, [K .allow], [.av .allow], [], false⟩,
  ⟨.avType, [K .auditAllow], [.av .auditallow], [], false⟩,
  ⟨.avType, [K .dontAudit], [.av .dontaudit], [], false⟩,
  ⟨.avType, [K .neverAllow], [.av .neverallow], [], false⟩,
  ⟨.xpermRule, [.n .xpermAvType, .n .stringList, .n .stringList, cn, .n .stringList, str,
    .n .xpermList, sc], [.insertXpermAvRule 1 2 3 5 6 7, .free 6], [], false⟩,
  ⟨.xpermAvType, [K .allowXperm], [.av .allow], [], false⟩,
  ⟨.xpermAvType, [K .auditAllowXperm], [.av .auditallow], [], false⟩,
  ⟨.xpermAvType, [K .dontAuditXperm], [.av .dontaudit], [], false⟩,
  ⟨.xpermAvType, [K .neverAllowXperm], [.av .neverallow], [], false⟩,
  ⟨.xpermList, [lc, .n .xpermItems, rc], [.copy 2], [], false⟩,
  ⟨.xpermList, [P .tilda, .n .xpermList], [.tilda 2], [], false⟩,
  ⟨.xpermList, [.n .xpermItem], [.consume 1], [], false⟩,
  ⟨.xpermItems, [.n .xpermItems, .n .xpermItem], [.append 1 2], [], false⟩,
  ⟨.xpermItems, [.n .xpermItem], [.consume 1], [], false⟩,
  ⟨.xpermItem, [str], [.copy 1], [], false⟩,
  ⟨.xpermItem, [.t .numString], [.copy 1], [], false⟩,
  ⟨.xpermItem, [.t .number], [.copy 1], [], false⟩,
  ⟨.xpermItem, [P .dash], [.text cs!"-"], [], false⟩,
  ⟨.stringList, [lc, .n .strings, rc], [.copy 2], [], false⟩,
  ⟨.stringList, [P .tilda, .n .stringList], [.tilda 2], [], false⟩,
  ⟨.stringList, [.n .slItem], [.consume 1], [], false⟩,
  ⟨.stringList, [P .star], [.single cs!"*"], [], false⟩,
  ⟨.strings, [.n .strings, .n .slItem], [.append 1 2], [], false⟩,
  ⟨.strings, [.n .slItem], [.consume 1], [], false⟩,
  ⟨.slItem, [str], [.copy 1], [], false⟩,
  ⟨.slItem, [P .dash, str], [.minus 2], [], false⟩,
  ⟨.slItem, [.t .quoted], [.copy 1], [], false⟩,
  ⟨.commaStringList, [.n .commaStringList, co, str], [.append 1 3], [], false⟩,
  ⟨.commaStringList, [str], [.consume 1], [], false⟩]

/-- parse.y:483-528: role rules, transitions, calls. -/
def transitionRules : List Rule := [
  ⟨.roleAllow, [.n .avType, .n .stringList, .n .stringList, sc],
    [.expectAllow 1 [.freeList 2, .freeList 3], .insertRoleAllow 2 3], [], false⟩,
  ⟨.roleTypes, [K .role, str, K .types, .n .stringList, sc],
    [.insertRoleTypes 2 4, .free 2], [], false⟩,
  ⟨.typeTransition, [K .typeTransition, .n .stringList, .n .stringList, cn, .n .stringList, str,
    sc], [.insertTransition .tt 2 3 5 6, .free 6], [], false⟩,
  ⟨.typeTransition, [K .typeTransition, .n .stringList, .n .stringList, cn, .n .stringList, str,
    .t .quoted, sc], [.insertNamedTransition 2 3 5 6 7, .free 6, .free 7], [], false⟩,
  ⟨.typeTransition, [K .typeMember, .n .stringList, .n .stringList, cn, .n .stringList, str, sc],
    [.insertTransition .tm 2 3 5 6, .free 6], [], false⟩,
  ⟨.typeTransition, [K .typeChange, .n .stringList, .n .stringList, cn, .n .stringList, str, sc],
    [.insertTransition .tc 2 3 5 6, .free 6], [], false⟩,
  ⟨.rangeTransition, [K .rangeTransition, .n .stringList, .n .stringList, cn, .n .stringList,
    .n .mlsRange, sc], [.insertTransition .rt 2 3 5 6, .free 6], [], false⟩,
  ⟨.roleTransition, [K .roleTransition, .n .stringList, .n .stringList, str, sc],
    [.insertRoleTransition 2 3 4, .free 4], [], false⟩,
  ⟨.roleTransition, [K .roleTransition, .n .stringList, .n .stringList, cn, .n .stringList, str,
    sc], [.insertRoleTransitionClass 2 3 5 6, .free 6], [], false⟩,
  ⟨.interfaceCall, [str, op, .n .args, cl], [.insertCall 1 3, .free 1], [], false⟩,
  ⟨.interfaceCall, [str, op, cl], [.insertCallNoArgs 1, .free 1], [], false⟩]

/-- parse.y:530-619: optional and require blocks. -/
def blockRules : List Rule := [
  ⟨.optionalBlock, [.n .optionalOpen, .n .lines, sq, cl], [.endBlock .optionalPolicy], [], false⟩,
  ⟨.optionalBlock, [.n .optionalOpen, sq, cl], [.endBlock .optionalPolicy], [], false⟩,
  ⟨.midOptionalEnd, [], [.endBlock .optionalPolicy], [.n .optionalOpen, .n .lines, sq, co], false⟩,
  ⟨.midOptionalElse, [], [.beginBlock .optionalElse],
    [.n .optionalOpen, .n .lines, sq, co, .n .midOptionalEnd, bt], false⟩,
  ⟨.optionalBlock, [.n .optionalOpen, .n .lines, sq, co, .n .midOptionalEnd, bt,
    .n .midOptionalElse, .n .lines, sq, cl], [.endBlock .optionalElse], [], false⟩,
  ⟨.optionalOpen, [K .optionalPolicy, op, bt], [.beginBlock .optionalPolicy], [], false⟩,
  ⟨.optionalOpen, [K .optionalPolicy, op, bt, cmd],
    [.beginBlock .optionalPolicy, .saveParent 4, .free 4], [], false⟩,
  ⟨.require, [.n .genRequireBegin, bt, .n .requireLines, sq, cl], [.endGenRequire false], [], false⟩,
  ⟨.require, [.n .genRequireBegin, bt, cmd, .n .requireLines, sq, cl],
    [.endGenRequire false, .saveCommand 3, .free 3], [], false⟩,
  ⟨.require, [.n .genRequireBegin, .n .requireLines, cl], [.endGenRequire true], [], false⟩,
  ⟨.midRequire, [], [.beginBlock .require], [K .require, lc], false⟩,
  ⟨.require, [K .require, lc, .n .midRequire, .n .requireLines, rc], [.endBlock .require], [],
    false⟩,
  ⟨.midRequireCommand, [], [.beginBlock .require, .saveParent 3], [K .require, lc, cmd], false⟩,
  ⟨.require, [K .require, lc, cmd, .n .midRequireCommand, .n .requireLines, rc],
    [.endBlock .require, .free 3], [], false⟩,
  ⟨.genRequireBegin, [K .genRequire, op], [.beginGenRequire], [], false⟩,
  ⟨.genRequireBegin, [K .genRequire, op, cmd], [.beginGenRequire, .saveParent 3, .free 3], [],
    false⟩,
  ⟨.requireLines, [.n .requireLines, .n .requireLine], [], [], false⟩,
  ⟨.requireLines, [.n .requireLine], [], [], false⟩,
  ⟨.requireLine, [.n .requireBare], [], [], false⟩,
  ⟨.requireLine, [.n .requireBare, cmd], [.saveCommand 2, .free 2], [], false⟩,
  ⟨.requireBare, [K .type, .n .commaStringList, sc], [.declareAll .type 2, .freeList 2], [], false⟩,
  ⟨.requireBare, [K .attribute, .n .commaStringList, sc], [.declareAll .attribute 2, .freeList 2],
    [], false⟩,
  ⟨.requireBare, [K .role, .n .commaStringList, sc], [.declareAll .role 2, .freeList 2], [], false⟩,
  ⟨.requireBare, [K .attributeRole, .n .commaStringList, sc],
    [.declareAll .attributeRole 2, .freeList 2], [], false⟩,
  ⟨.requireBare, [K .bool, .n .commaStringList, sc], [.declareAll .bool 2, .freeList 2], [], false⟩,
  ⟨.requireBare, [K .cls, str, .n .stringList, sc], [.declareWith .cls 2 3, .free 2], [], false⟩,
  ⟨.midReqIfdefQuoted, [], [.beginBlock .ifdef], [.n .ifOrIfn, op, bt, str, sq, co, bt], false⟩,
  ⟨.requireBare, [.n .ifOrIfn, op, bt, str, sq, co, bt, .n .midReqIfdefQuoted, .n .requireLines,
    sq, cl], [.endBlock .ifdef, .free 4], [], false⟩,
  ⟨.midReqIfdef, [], [.beginBlock .ifdef], [.n .ifOrIfn, op, bt, str, sq, co], false⟩,
  ⟨.requireBare, [.n .ifOrIfn, op, bt, str, sq, co, .n .midReqIfdef, .n .requireLines, cl],
    [.endBlock .ifdef, .free 4], [], false⟩,
  ⟨.requireBare, [.t .comment], [], [], false⟩]

/-- parse.y:621-720: macros, conditions. -/
def m4Rules : List Rule := [
  ⟨.m4SimpleMacro, [str], [.insertM4SimpleMacro 1], [], false⟩,
  ⟨.m4Call, [.n .ifdef], [], [], false⟩,
  ⟨.m4Call, [.n .ifelse], [], [], false⟩,
  ⟨.m4Call, [.n .refpolicywarn], [], [], false⟩,
  ⟨.m4Call, [.n .userdebugOrEng], [], [], false⟩,
  ⟨.midIfdef, [], [.beginBlock .ifdef], [.n .ifOrIfn, op, bt, str, sq, co], false⟩,
  ⟨.ifdef, [.n .ifOrIfn, op, bt, str, sq, co, .n .midIfdef, .n .m4Args, cl],
    [.endBlock .ifdef, .free 4], [], false⟩,
  ⟨.ifOrIfn, [K .ifdef], [], [], false⟩,
  ⟨.ifOrIfn, [K .ifndef], [], [], false⟩,
  ⟨.midIfelse, [], [.beginBlock .ifelse], [K .ifelse, op], false⟩,
  ⟨.ifelse, [K .ifelse, op, .n .midIfelse, .n .m4Args, cl], [.endBlock .ifelse], [], false⟩,
  ⟨.refpolicywarn, [K .refpolicywarn, op, bt, .n .arbitraryM4String, sq, cl], [], [], false⟩,
  ⟨.userdebugOrEng, [K .userdebugOrEng, op, bt, .n .lines, sq, cl], [], [], false⟩,
  ⟨.arbitraryM4String, [.n .m4StringElem], [], [], false⟩,
  ⟨.arbitraryM4String, [.n .m4StringElem, .n .arbitraryM4String], [], [], false⟩,
  ⟨.arbitraryM4String, [bt, .n .m4StringElem, sq], [], [], false⟩,
  ⟨.m4StringElem, [str], [.free 1], [], false⟩,
  ⟨.m4StringElem, [op], [], [], false⟩,
  ⟨.m4StringElem, [cl], [], [], false⟩,
  ⟨.m4StringElem, [lc], [], [], false⟩,
  ⟨.m4StringElem, [rc], [], [], false⟩,
  ⟨.m4StringElem, [co], [], [], false⟩,
  ⟨.m4StringElem, [P .period], [], [], false⟩,
  ⟨.m4StringElem, [cn], [], [], false⟩,
  ⟨.m4StringElem, [sc], [], [], false⟩,
  ⟨.m4StringElem, [P .dash], [], [], false⟩,
  ⟨.condition, [str], [.free 1], [], false⟩,
  ⟨.condition, [P .not, .n .condition], [], [], false⟩,
  ⟨.condition, [.n .condition, P .and, .n .condition], [], [], false⟩,
  ⟨.condition, [.n .condition, P .or, .n .condition], [], [], false⟩,
  ⟨.condition, [.n .condition, P .xor, .n .condition], [], [], false⟩,
  ⟨.condition, [.n .condition, P .equal, .n .condition], [], [], false⟩,
  ⟨.condition, [.n .condition, P .notEqual, .n .condition], [], [], false⟩,
  ⟨.condition, [op, .n .condition, cl], [], [], false⟩,
  ⟨.midFirstArg, [], [.beginBlock .m4Arg], [], false⟩,
  ⟨.m4Args, [.n .midFirstArg, .n .m4Argument], [.endBlock .m4Arg], [], false⟩,
  ⟨.midNextArg, [], [.beginBlock .m4Arg], [.n .m4Args, co], false⟩,
  ⟨.m4Args, [.n .m4Args, co, .n .midNextArg, .n .m4Argument], [.endBlock .m4Arg], [], false⟩,
  ⟨.m4Argument, [], [], [], false⟩,
  ⟨.m4Argument, [bt, sq], [], [], false⟩,
  ⟨.m4Argument, [bt, .n .lines, sq], [], [], false⟩,
  ⟨.m4Argument, [str], [.free 1], [], false⟩]

/-- parse.y:722-795: arguments, ranges, conditional blocks. -/
def argRules : List Rule := [
  ⟨.arg, [.n .xpermList], [.copy 1], [], false⟩,
  ⟨.arg, [.t .quoted], [.consume 1], [], false⟩,
  ⟨.arg, [bt, .n .strings, sq], [.copy 2], [], false⟩,
  ⟨.arg, [bt, sq], [.single []], [], false⟩,
  ⟨.args, [.n .arg], [.copy 1], [], false⟩,
  ⟨.args, [.n .args, co, .n .arg], [.concat 1 3], [], false⟩,
  ⟨.args, [.n .args, .n .slItem], [.space 1 2], [], false⟩,
  ⟨.mlsRange, [.n .mlsLevel, P .dash, .n .mlsLevel], [.join '-' 1 3], [], false⟩,
  ⟨.mlsRange, [.n .mlsLevel], [.copy 1], [], false⟩,
  ⟨.mlsLevel, [.n .mlsComponent], [.copy 1], [], false⟩,
  ⟨.mlsLevel, [.n .mlsComponent, cn, .n .mlsComponent], [.join ':' 1 3], [], false⟩,
  ⟨.mlsComponent, [str], [.dup 1], [], false⟩,
  ⟨.mlsComponent, [str, P .period, str], [.join '.' 1 3], [], false⟩,
  ⟨.condExpr, [.n .tunableBlock], [], [], false⟩,
  ⟨.condExpr, [.n .booleanBlock], [], [], false⟩,
  ⟨.booleanBlock, [.n .booleanOpen, .n .condition, cl, lc, .n .lines, rc],
    [.endBlock .booleanPolicy], [], false⟩,
  ⟨.booleanBlock, [.n .booleanOpen, .n .condition, cl, lc, .n .lines, rc, K .kwElse, lc, .n .lines,
    rc], [.endBlock .booleanPolicy], [], false⟩,
  ⟨.booleanOpen, [K .kwIf, op], [.beginBlock .booleanPolicy], [], false⟩,
  ⟨.booleanOpen, [K .kwIf, op, cmd], [.beginBlock .booleanPolicy, .saveParent 3, .free 3], [],
    false⟩,
  ⟨.midTunableQuoted, [], [.beginBlock .tunablePolicy], [K .tunablePolicy, op, bt], false⟩,
  ⟨.tunableBlock, [K .tunablePolicy, op, bt, .n .midTunableQuoted, .n .condition, sq, co,
    .n .m4Args, cl], [.endBlock .tunablePolicy], [], false⟩,
  ⟨.midTunable, [], [.beginBlock .tunablePolicy], [K .tunablePolicy, op], false⟩,
  ⟨.tunableBlock, [K .tunablePolicy, op, .n .midTunable, .n .condition, co, .n .m4Args, cl],
    [.endBlock .tunablePolicy], [], false⟩]

/-- parse.y:797-910: contexts, definitions, users. -/
def contextRules : List Rule := [
  ⟨.genfscon, [K .genfscon, str, str, .n .genfsconContext], [.free 2, .free 3], [], false⟩,
  ⟨.genfscon, [K .genfscon, .t .numString, str, .n .genfsconContext], [.free 2, .free 3], [], false⟩,
  ⟨.genfsconContext, [.n .context], [], [], false⟩,
  ⟨.genfsconContext, [.t .fileType, .n .context], [], [], false⟩,
  ⟨.sid, [K .sid, str, .n .context], [.free 2], [], false⟩,
  ⟨.portcon, [K .portcon, str, .n .portRange, .n .context], [.free 2], [], false⟩,
  ⟨.portRange, [.t .numString], [.free 1], [], false⟩,
  ⟨.portRange, [.t .number], [.free 1], [], false⟩,
  ⟨.portRange, [.t .number, P .dash, .t .number], [.free 1, .free 3], [], false⟩,
  ⟨.netifcon, [K .netifcon, str, .n .context, .n .context], [.free 2], [], false⟩,
  ⟨.nodecon, [K .nodecon, .n .twoIpAddrs, .n .context], [], [], false⟩,
  ⟨.twoIpAddrs, [.t .ipv4, .t .ipv4], [.free 1, .free 2], [], false⟩,
  ⟨.twoIpAddrs, [.t .ipv6, .t .ipv6], [.free 1, .free 2], [], false⟩,
  ⟨.fsUse, [K .fsUseTrans, str, .n .context, sc], [.free 2], [], false⟩,
  ⟨.fsUse, [K .fsUseXattr, str, .n .context, sc], [.free 2], [], false⟩,
  ⟨.fsUse, [K .fsUseTask, str, .n .context, sc], [.free 2], [], false⟩,
  ⟨.midDefine, [], [.beginBlock .define], [K .define, op], false⟩,
  ⟨.define, [K .define, op, .n .midDefine, .n .defineName, .n .defineContent, cl],
    [.endBlock .define], [], false⟩,
  ⟨.defineName, [bt, str, sq], [.free 2], [], false⟩,
  ⟨.defineName, [str], [.free 1], [], false⟩,
  ⟨.defineContent, [], [], [], false⟩,
  ⟨.defineContent, [co, .n .defineExpansion], [], [], false⟩,
  ⟨.defineExpansion, [], [], [], false⟩,
  ⟨.defineExpansion, [bt, .n .arbitraryM4String, sq], [], [], false⟩,
  ⟨.defineExpansion, [str], [.free 1], [], false⟩,
  ⟨.maybeStringComma, [str, co], [.copy 1], [], false⟩,
  ⟨.maybeStringComma, [co], [.text []], [], false⟩,
  ⟨.genUser, [K .genUser, op, .n .maybeStringComma, .n .maybeStringComma, .n .strings, co,
    .n .mlsRange, co, .n .mlsRange, cl], [.free 3, .free 4, .freeList 5, .free 7, .free 9], [],
    false⟩,
  ⟨.genUser, [K .genUser, op, .n .maybeStringComma, .n .maybeStringComma, .n .strings, co,
    .n .mlsRange, co, .n .mlsRange, co, .n .mlsRange, cl],
    [.free 3, .free 4, .freeList 5, .free 7, .free 9, .free 11], [], false⟩,
  ⟨.context, [.n .rawContext], [], [], false⟩,
  ⟨.context, [K .genContext, op, .n .rawContext, cl], [], [], false⟩,
  ⟨.context, [K .genContext, op, .n .rawContext, co, .n .mlsRange, cl], [.free 5], [], false⟩,
  ⟨.context, [K .genContext, op, .n .rawContext, co, .n .mlsRange, co, .n .mlsRange, cl],
    [.free 5, .free 7], [], false⟩,
  ⟨.context, [K .genContext, op, .n .rawContext, co, .n .mlsRange, co, cl], [.free 5], [], false⟩,
  ⟨.rawContext, [str, cn, str, cn, str], [.free 1, .free 3, .free 5], [], false⟩,
  ⟨.rawContext, [str, cn, str, cn, str, cn, .n .mlsRange], [.free 1, .free 3, .free 5, .free 7],
    [], false⟩,
  ⟨.permissive, [K .permissive, str, sc], [.insertPermissive 2, .free 2], [], false⟩,
  ⟨.typebounds, [K .typebounds, str, str, sc], [.free 2, .free 3], [], false⟩]

/-- parse.y:912-962: interface files. -/
def ifRules : List Rule := [
  ⟨.ifFile, [.n .interfaceDef, .n .ifLines], [], [], false⟩,
  ⟨.ifFile, [.n .interfaceDef], [], [], false⟩,
  ⟨.ifLines, [.n .ifLines, .n .ifLine], [], [], false⟩,
  ⟨.ifLines, [.n .ifLine], [], [], false⟩,
  ⟨.ifLine, [.n .interfaceDef], [], [], false⟩,
  ⟨.ifLine, [.t .comment], [.insertComment], [], false⟩,
  ⟨.interfaceDef, [.n .startInterface, .n .lines, .n .endInterface], [], [], false⟩,
  ⟨.interfaceDef, [.n .startInterface, cmd, .n .lines, .n .endInterface],
    [.saveCommand 2, .free 2], [], false⟩,
  ⟨.interfaceDef, [.n .startInterface, .n .endInterface], [], [], false⟩,
  ⟨.interfaceDef, [.n .startInterface, cmd, .n .endInterface], [.saveCommand 2, .free 2], [],
    false⟩,
  ⟨.startInterface, [.n .ifKeyword, op, bt, str, sq, co, bt],
    [.expect .ifFile [], .beginInterfaceDef 1 4, .free 4], [], false⟩,
  ⟨.endInterface, [sq, cl], [.endInterfaceDef], [], false⟩,
  ⟨.ifKeyword, [K .interface], [.ifKind false], [], false⟩,
  ⟨.ifKeyword, [K .template], [.ifKind true], [], false⟩]

/-- parse.y:964-1076: support files and access vector files. -/
def sptRules : List Rule := [
  ⟨.sptFile, [.n .supportDef, .n .sptLines], [], [], false⟩,
  ⟨.sptFile, [.n .supportDef], [], [], false⟩,
  ⟨.sptLines, [.n .sptLines, .n .sptLine], [], [], false⟩,
  ⟨.sptLines, [.n .sptLine], [], [], false⟩,
  ⟨.sptLine, [.n .supportDef], [], [], false⟩,
  ⟨.sptLine, [.t .comment], [], [], false⟩,
  ⟨.supportDef, [K .define, op, bt, str, sq, co, bt, .n .stringList, sq, cl],
    [.expect .sptFile [.free 4, .freeList 8], .insertMacro 4 8, .free 4], [], false⟩,
  ⟨.supportDef, [K .define, op, bt, str, sq, co, bt, .n .stringList, .n .refpolicywarn, sq, cl],
    [.expect .sptFile [.free 4, .freeList 8], .free 4, .freeList 8], [], false⟩,
  ⟨.avFile, [.n .avDefinition, .n .avContents], [], [], false⟩,
  ⟨.avFile, [.n .avDefinition], [], [], false⟩,
  ⟨.avContents, [.n .avContents, .n .avContent], [], [], false⟩,
  ⟨.avContents, [.n .avContent], [], [], false⟩,
  ⟨.avContent, [.n .avDefinition], [], [], false⟩,
  ⟨.avContent, [.t .comment], [], [], false⟩,
  ⟨.avDefinition, [.n .avClassDefinition], [], [], false⟩,
  ⟨.avDefinition, [.n .avCommonDefinition], [], [], false⟩,
  ⟨.avClassDefinition, [K .cls, str, .n .avPermissionList],
    [.expect .avFile [.free 2], .insertAv .cls 2, .free 2], [], false⟩,
  ⟨.avClassDefinition, [K .cls, str, K .inherits, str],
    [.expect .avFile [.free 2, .free 4], .insertAv .cls 2, .free 2, .free 4], [], false⟩,
  ⟨.avClassDefinition, [K .cls, str, K .inherits, str, .n .avPermissionList],
    [.expect .avFile [.free 2, .free 4], .insertAv .cls 2, .free 2, .free 4], [], false⟩,
  ⟨.avCommonDefinition, [K .common, str, .n .avPermissionList], [.free 2], [], false⟩,
  ⟨.avPermissionList, [lc, .n .avPermissions, rc], [], [], false⟩,
  ⟨.avPermissions, [.n .avPermissions, .n .avPermission], [], [], false⟩,
  ⟨.avPermissions, [.n .avPermission], [], [], false⟩,
  ⟨.avPermission, [str], [.insertAv .perm 1, .free 1], [], false⟩,
  ⟨.avPermission, [.t .comment], [], [], false⟩]

/-- parse.y:199-1076: all productions but `bare_line: error`. -/
def rules : List Rule :=
  fileRules ++ lineRules ++ declRules ++ ruleRules ++ transitionRules ++ blockRules ++ m4Rules ++
    argRules ++ contextRules ++ ifRules ++ sptRules

/-! ## Running an action -/

/-- The parser's variables while an action runs, the lists of permissions that were given away,
and `$$`. -/
structure Act where
  ms : MState
  tabs : Sptables
  ret : Val

/-- An action continues, or it has come to `YYERROR`. -/
inductive Outcome where
  | go (s : Act)
  | error (s : Act)

/-- `$n`, used as a string. -/
def strAt (vals : List Val) (n : Nat) : Res Addr :=
  match vals[n - 1]? with
  | some (.str a) => .ok a
  | _ => .ub

/-- `$n`, used as a list. -/
def listAt (vals : List Val) (n : Nat) : Res (Option Addr) :=
  match vals[n - 1]? with
  | some (.list p) => .ok p
  | _ => .ub

/-- `$n`, used as the kind of a rule. -/
def avAt (vals : List Val) (n : Nat) : Res AvFlavor :=
  match vals[n - 1]? with
  | some (.av fl) => .ok fl
  | _ => .ub

/-- `$n`, used as the kind of a definition. -/
def ifKindAt (vals : List Val) (n : Nat) : Res Bool :=
  match vals[n - 1]? with
  | some (.ifKind b) => .ok b
  | _ => .ub

namespace Act

/-- The statement changes the parser's variables. -/
def step (s : Act) (r : Res MState) : Res Outcome := do
  .ok (.go { s with ms := (← r) })

/-- The statement assigns a string to `$$`. -/
def word (s : Act) (f : Mem → Res (Addr × Mem)) : Res Outcome := do
  let (a, ms) ← s.ms.value f
  .ok (.go { s with ms := ms, ret := .str a })

/-- The statement assigns a list to `$$`. -/
def list (s : Act) (f : Mem → Res (Option Addr × Mem)) : Res Outcome := do
  let (p, ms) ← s.ms.value f
  .ok (.go { s with ms := ms, ret := .list p })

end Act

/-- `free($n)`, `free_string_list($n)` before `YYERROR`. -/
def Release.exec (vals : List Val) : Release → MState → Res MState
  | .free n, ms => do ms.free (← strAt vals n)
  | .freeList n, ms => do ms.freeList (← listAt vals n)

/-- What is freed before `YYERROR`. -/
def releaseAll (vals : List Val) : List Release → MState → Res MState
  | [], ms => .ok ms
  | r :: rs, ms => do releaseAll vals rs (← r.exec vals ms)

/-- parse.y:762: `$$ = strdup($1); free($1);`. -/
def dupString (m : Mem) (a : Addr) : Res (Addr × Mem) := do
  let t ← m.get Obj.str? a
  let (b, m) := m.malloc (.bytes t)
  let m ← m.free (some a)
  .ok (b, m)

/-- parse.y:468-472: a dash is put in front. -/
def minusString (m : Mem) (a : Addr) : Res (Addr × Mem) := do
  let t ← m.get Obj.str? a
  let (b, m) := m.malloc (.bytes ('-' :: t))
  let m ← m.free (some a)
  .ok (b, m)

/-- parse.y:737-740: a marked word at the end of a list. -/
def appendSpace (m : Mem) (l : Option Addr) (w : Addr) : Res (Option Addr × Mem) :=
  let (p, m) := m.malloc (.sl ⟨some w, none, true⟩)
  m.concatStringLists m.top l (some p)

/-- parse.y:991-995. -/
def insertMacro (ms : MState) (t : Sptables) (a : Addr) (p : Option Addr) :
    Res (MState × Sptables) := do
  let s ← ms.mem.get Obj.str? a
  if endsWith s cs!"_perms" then
    let l ← ms.mem.readList ms.mem.top p
    .ok (giveList ms t s p (l.map (·.1)))
  else
    .ok (← ms.freeList p, t)

/-- parse.y:202: `cur->flavor = NODE_EMPTY`. -/
def setEmpty (ms : MState) : Res MState := do
  let n ← ms.mem.get Obj.node? ms.cur
  let m ← ms.mem.write ms.cur (.node { n with flavor := .empty })
  .ok { ms with mem := m }

/-- The statements of the actions (see `Cmd`). -/
def Cmd.exec (expected : PlainFlavor) (line : Nat) (vals : List Val) (s : Act) :
    Cmd → Res Outcome
  | .copy n =>
    match vals[n - 1]? with
    | some v => .ok (.go { s with ret := v })
    | none => .ub
  | .text t => s.word (fun m => .ok (m.malloc (.bytes t)))
  | .dup n => do
    let a ← strAt vals n
    s.word (fun m => dupString m a)
  | .minus n => do
    let a ← strAt vals n
    s.word (fun m => minusString m a)
  | .join c n k => do
    let a ← strAt vals n
    let b ← strAt vals k
    s.word (fun m => m.joinStrings c a b)
  | .single t => s.list (fun m => let (p, m) := m.slFromStr t; .ok (some p, m))
  | .consume n => do
    let a ← strAt vals n
    s.list (fun m => let (p, m) := m.slFromStrConsume (some a); .ok (some p, m))
  | .tilda n => do
    let p ← listAt vals n
    s.list (fun m => m.putTilda p)
  | .append n k => do
    let p ← listAt vals n
    let a ← strAt vals k
    s.list (fun m => m.appendWord p a)
  | .concat n k => do
    let p ← listAt vals n
    let q ← listAt vals k
    s.list (fun m => m.concatStringLists m.top p q)
  | .space n k => do
    let p ← listAt vals n
    let a ← strAt vals k
    s.list (fun m => appendSpace m p a)
  | .av fl => .ok (.go { s with ret := .av fl })
  | .ifKind b => .ok (.go { s with ret := .ifKind b })
  | .free n => do
    let a ← strAt vals n
    s.step (s.ms.free a)
  | .freeList n => do
    let p ← listAt vals n
    s.step (s.ms.freeList p)
  | .expect fl first =>
    if expected = fl then .ok (.go s)
    else do
      let ms ← releaseAll vals first s.ms
      .ok (.error { s with ms := ms })
  | .expectAllow n first => do
    let fl ← avAt vals n
    if fl = .allow then .ok (.go s)
    else
      let ms ← releaseAll vals first s.ms
      .ok (.error { s with ms := ms })
  | .setEmpty => s.step (Lr.setEmpty s.ms)
  | .insertComment => s.step (s.ms.insertComment line)
  | .insertSemicolon => s.step (s.ms.insertSemicolon line)
  | .insertHeader fl n => do
    let a ← strAt vals n
    s.step (s.ms.insertHeader a fl line)
  | .declare fl n => do
    let a ← strAt vals n
    s.step (s.ms.insertDeclaration fl a none line)
  | .declareWith fl n k => do
    let a ← strAt vals n
    let p ← listAt vals k
    s.step (s.ms.insertDeclaration fl a p line)
  | .insertAliases n => do
    let p ← listAt vals n
    s.step (s.ms.insertAliases p .type line)
  | .insertTypeAlias n => do
    let a ← strAt vals n
    s.step (s.ms.addString .typeAlias a line)
  | .insertAttribute fl n k => do
    let a ← strAt vals n
    let p ← listAt vals k
    s.step (s.ms.insertAttribute fl a p line)
  | .insertAvRule a x t c p => do
    let fl ← avAt vals a
    let x ← listAt vals x
    let t ← listAt vals t
    let c ← listAt vals c
    let p ← listAt vals p
    s.step (s.ms.insertAvRule ⟨fl, x, t, c, p⟩ line)
  | .insertXpermAvRule a x t c o p => do
    let fl ← avAt vals a
    let x ← listAt vals x
    let t ← listAt vals t
    let c ← listAt vals c
    let o ← strAt vals o
    let p ← listAt vals p
    s.step (s.ms.insertXpermAvRule ⟨fl, x, t, c, p⟩ o line)
  | .insertRoleAllow n k => do
    let p ← listAt vals n
    let q ← listAt vals k
    s.step (s.ms.insertRoleAllow p q line)
  | .insertRoleTypes n k => do
    let a ← strAt vals n
    let p ← listAt vals k
    s.step (s.ms.insertRoleTypes a p line)
  | .insertTransition fl x t c d => do
    let x ← listAt vals x
    let t ← listAt vals t
    let c ← listAt vals c
    let d ← strAt vals d
    s.step (s.ms.insertTypeTransition fl x t c d none line)
  | .insertNamedTransition x t c d n => do
    let x ← listAt vals x
    let t ← listAt vals t
    let c ← listAt vals c
    let d ← strAt vals d
    let n ← strAt vals n
    s.step (s.ms.insertTypeTransition .tt x t c d (some n) line)
  | .insertRoleTransition x t d => do
    let x ← listAt vals x
    let t ← listAt vals t
    let d ← strAt vals d
    s.step (s.ms.insertRoleTransition x t none d line)
  | .insertRoleTransitionClass x t c d => do
    let x ← listAt vals x
    let t ← listAt vals t
    let c ← listAt vals c
    let d ← strAt vals d
    s.step (s.ms.insertRoleTransition x t c d line)
  | .insertCall n k => do
    let a ← strAt vals n
    let p ← listAt vals k
    s.step (s.ms.insertInterfaceCall a p line)
  | .insertCallNoArgs n => do
    let a ← strAt vals n
    s.step (s.ms.insertInterfaceCall a none line)
  | .insertM4SimpleMacro n => do
    let a ← strAt vals n
    s.step (s.ms.insertM4SimpleMacro a line)
  | .insertPermissive n => do
    let a ← strAt vals n
    s.step (s.ms.addString .permissive a line)
  | .beginBlock fl => s.step (s.ms.beginBlock fl.toFlavor none line)
  | .endBlock fl => s.step (s.ms.close fl)
  | .beginGenRequire => s.step (s.ms.beginGenRequire line)
  | .endGenRequire b => s.step (s.ms.endGenRequire b)
  | .beginInterfaceDef n k => do
    let b ← ifKindAt vals n
    let a ← strAt vals k
    s.step (s.ms.beginInterfaceDef b a line)
  | .endInterfaceDef => s.step s.ms.endInterfaceDef
  | .saveCommand n => do
    let a ← strAt vals n
    let m ← s.ms.mem.saveCommand s.ms.cur a
    .ok (.go { s with ms := { s.ms with mem := m } })
  | .saveParent n => do
    let a ← strAt vals n
    s.step (s.ms.saveParent a)
  | .declareAll fl n => do
    let p ← listAt vals n
    s.step (declareLoop fl line s.ms.mem.top s.ms p)
  | .insertAv fl n => do
    let a ← strAt vals n
    let t ← s.ms.mem.get Obj.str? a
    .ok (.go { s with ms := { s.ms with maps := s.ms.maps.insertDecl t avFileName fl } })
  | .insertMacro n k => do
    let a ← strAt vals n
    let p ← listAt vals k
    let (ms, t) ← Lr.insertMacro s.ms s.tabs a p
    .ok (.go { s with ms := ms, tabs := t })

/-- The statements of an action, one after the other; `YYERROR` ends it. -/
def execAll (expected : PlainFlavor) (line : Nat) (vals : List Val) :
    List Cmd → Act → Res Outcome
  | [], s => .ok (.go s)
  | c :: cs, s => do
    match ← c.exec expected line vals s with
    | .go s => execAll expected line vals cs s
    | .error s => .ok (.error s)

/-! ## The machine -/

/-- A symbol with its value. -/
structure Entry where
  sym : Sym
  val : Val

/-- bison's stack (the top first), the token that was read but not shifted, and the parser's
variables. -/
structure Config where
  expected : PlainFlavor
  stack : List Entry
  look : Option Entry
  ms : MState
  tabs : Sptables

/-- The kind and the string of a token. -/
def term : Token → Term × Option Str
  | .kw k => (.kw k, none)
  | .p p => (.p p, none)
  | .versionNo s => (.versionNo, some s)
  | .number s => (.number, some s)
  | .string s => (.string, some s)
  | .numString s => (.numString, some s)
  | .ipv4 s => (.ipv4, some s)
  | .ipv6 s => (.ipv6, some s)
  | .quoted s => (.quoted, some s)
  | .fileType => (.fileType, none)
  | .command s => (.command, some s)
  | .comment => (.comment, none)
  | .unknown _ => (.unknown, none)

/-- What the parser may do. -/
inductive Move where
  /-- ask the scanner for a token (`none` is the end of the file) -/
  | read (t : Option Token)
  | shift
  | reduce (r : Rule) (line : Nat)

/-- The parser continues, or an action has come to `YYERROR`; then the right-hand side of its
production has been taken off the stack without running destructors. -/
inductive Next where
  | go (c : Config)
  | error (c : Config)

/-- lex.l:96-183: the scanner's `strdup`. -/
def readToken (c : Config) : Option Token → Config
  | none => { c with look := some ⟨.t .eof, .none⟩ }
  | some t =>
    match term t with
    | (k, none) => { c with look := some ⟨.t k, .none⟩ }
    | (k, some s) =>
      let (a, ms) := c.ms.token s
      { c with look := some ⟨.t k, .str a⟩, ms := ms }

/-- Can the production be reduced? -/
def Config.fits (c : Config) (r : Rule) : Bool :=
  decide (r ∈ rules) &&
  decide (((c.stack.take (r.before.length + r.rhs.length)).reverse.map Entry.sym) =
    r.before ++ r.rhs) &&
  (!r.onlyFirst || c.stack.isEmpty)

/-- A production is reduced: its action runs, and its left-hand side replaces its right-hand
side. -/
def Config.reduce (c : Config) (r : Rule) (line : Nat) : Res Next := do
  let vals := (c.stack.take (r.before.length + r.rhs.length)).reverse.map Entry.val
  let rest := c.stack.drop r.rhs.length
  match ← execAll c.expected line vals r.action ⟨c.ms, c.tabs, .none⟩ with
  | .go s => .ok (.go { c with stack := ⟨.n r.lhs, s.ret⟩ :: rest, ms := s.ms, tabs := s.tabs })
  | .error s => .ok (.error { c with stack := rest, ms := s.ms, tabs := s.tabs })

/-- One move; `none` if the parser cannot make it. -/
def Config.step (c : Config) : Move → Option (Res Next)
  | .read t =>
    match c.look with
    | none => some (.ok (.go (readToken c t)))
    | some _ => none
  | .shift =>
    match c.look with
    | none => none
    | some e => some (.ok (.go { c with stack := e :: c.stack, look := none }))
  | .reduce r line => if c.fits r then some (c.reduce r line) else none

/-- The destructor of an entry. -/
def Entry.destroy (e : Entry) (m : Mem) : Res Mem :=
  match e.sym.destructor, e.val with
  | .nothing, _ => .ok m
  | .free, .str a => m.free (some a)
  | .freeList, .list p => Mem.freeStringList m.top m p
  | _, _ => .ub

/-- The destructors of entries. -/
def destroyAll : List Entry → Mem → Res Mem
  | [], m => .ok m
  | e :: es, m => do destroyAll es (← e.destroy m)

/-- The parser gives up: the destructors of the token that was read and of everything on the
stack (in bison's `yyreturn`), and then parse.y:1191-1195. -/
def Config.giveUp (c : Config) (ast : Addr) : Res Mem := do
  let m ← destroyAll (c.look.toList ++ c.stack) c.ms.mem
  m.freePolicyNode m.top (some ast)

/-- parse.y:1177-1184: the start of a file. -/
def start (m : Mem) (expected : PlainFlavor) (mod : Str) (maps : Maps) : Config :=
  ⟨expected, [], none, MState.init m (NodeData.plain expected none).flavor mod maps, ⟨[], []⟩⟩

/-- The root, `ast`, is what is allocated first. -/
def root (m : Mem) : Addr := m.top

end Lr
end Selint
