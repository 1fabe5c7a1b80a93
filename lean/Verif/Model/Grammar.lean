import Verif.Model.Token
import Verif.Model.Tree
/-!
# The grammar (parse.y:199-1076)

A value of one of the types below is a derivation of the grammar: which production was used
at each place, with the semantic values of the tokens and, where an action uses
`@$.first_line`, that line number. `tokens` gives the token sequence a derivation derives.
The recursive list productions are represented by a first element and the list of the
others. Derivations that end in the `error` production do not lead to an accepted file and
have no counterpart here.
-/

namespace Selint

/-- Shorthands for tokens. -/
def tOpen : Token := .p .openParen
/-- `)` -/
def tClose : Token := .p .closeParen
/-- `,` -/
def tComma : Token := .p .comma
/-- `;` -/
def tSemi : Token := .p .semicolon
/-- `:` -/
def tColon : Token := .p .colon
/-- `` ` `` -/
def tTick : Token := .p .backtick
/-- `'` -/
def tQuote : Token := .p .singleQuote
/-- `{` -/
def tLeft : Token := .p .openCurly
/-- `}` -/
def tRight : Token := .p .closeCurly

/-! ## Lists of words -/

/-- parse.y:465-475 `sl_item`. -/
inductive SlItem where
  | word (s : Str)
  | minus (s : Str)
  | quoted (s : Str)

/-- parse.y:465-475: the string of an item; a dash is put in front. -/
def SlItem.value : SlItem → Str
  | word s => s
  | minus s => '-' :: s
  | quoted s => s

/-- The tokens of an item. -/
def SlItem.tokens : SlItem → List Token
  | word s => [.string s]
  | minus s => [.p .dash, .string s]
  | quoted s => [.quoted s]

/-- parse.y:449-457 `string_list`, with 459-463 `strings`. -/
inductive SList where
  | braces (first : SlItem) (rest : List SlItem)
  | tilda (l : SList)
  | item (i : SlItem)
  | star

/-- parse.y:449-463: the list built by the actions. -/
def SList.value : SList → List Str
  | braces first rest => first.value :: rest.map SlItem.value
  | tilda l => cs!"~" :: l.value
  | item i => [i.value]
  | star => [cs!"*"]

/-- The tokens of a list. -/
def SList.tokens : SList → List Token
  | braces first rest => tLeft :: (first.tokens ++ rest.flatMap SlItem.tokens ++ [tRight])
  | tilda l => .p .tilda :: l.tokens
  | item i => i.tokens
  | star => [.p .star]

/-- parse.y:439-447 `xperm_item`. -/
inductive XItem where
  | word (s : Str)
  | numString (s : Str)
  | number (s : Str)
  | dash

/-- parse.y:439-447. -/
def XItem.value : XItem → Str
  | word s => s
  | numString s => s
  | number s => s
  | dash => cs!"-"

/-- The tokens of an item. -/
def XItem.tokens : XItem → List Token
  | word s => [.string s]
  | numString s => [.numString s]
  | number s => [.number s]
  | dash => [.p .dash]

/-- parse.y:425-437 `xperm_list`, `xperm_items`. -/
inductive XList where
  | braces (first : XItem) (rest : List XItem)
  | tilda (l : XList)
  | item (i : XItem)

/-- parse.y:425-437. -/
def XList.value : XList → List Str
  | braces first rest => first.value :: rest.map XItem.value
  | tilda l => cs!"~" :: l.value
  | item i => [i.value]

/-- The tokens of a list. -/
def XList.tokens : XList → List Token
  | braces first rest => tLeft :: (first.tokens ++ rest.flatMap XItem.tokens ++ [tRight])
  | tilda l => .p .tilda :: l.tokens
  | item i => i.tokens

/-- parse.y:477-481 `comma_string_list`. -/
structure CommaList where
  first : Str
  rest : List Str

/-- parse.y:477-481. -/
def CommaList.value (l : CommaList) : List Str := l.first :: l.rest

/-- The tokens of a comma separated list. -/
def CommaList.tokens (l : CommaList) : List Token :=
  .string l.first :: l.rest.flatMap fun s => [tComma, .string s]

/-- parse.y:722-730 `arg`. -/
inductive Arg where
  | xperm (l : XList)
  | quoted (s : Str)
  | words (first : SlItem) (rest : List SlItem)
  | empty

/-- parse.y:722-730. -/
def Arg.value : Arg → List Str
  | xperm l => l.value
  | quoted s => [s]
  | words first rest => first.value :: rest.map SlItem.value
  | empty => [[]]

/-- The tokens of an argument. -/
def Arg.tokens : Arg → List Token
  | xperm l => l.tokens
  | quoted s => [.quoted s]
  | words first rest => tTick :: (first.tokens ++ rest.flatMap SlItem.tokens ++ [tQuote])
  | empty => [tTick, tQuote]

/-- parse.y:732-741: what may follow in `args`. -/
inductive ArgCont where
  | comma (a : Arg)
  | space (i : SlItem)

/-- parse.y:735-740: the list elements appended; a word without a comma is marked. -/
def ArgCont.value : ArgCont → List (Str × Bool)
  | comma a => a.value.map fun s => (s, false)
  | space i => [(i.value, true)]

/-- The tokens of a continuation. -/
def ArgCont.tokens : ArgCont → List Token
  | comma a => tComma :: a.tokens
  | space i => i.tokens

/-- parse.y:732-741 `args`. -/
structure Args where
  first : Arg
  rest : List ArgCont

/-- parse.y:732-741. -/
def Args.value (a : Args) : List (Str × Bool) :=
  (a.first.value.map fun s => (s, false)) ++ a.rest.flatMap ArgCont.value

/-- The tokens of an argument list. -/
def Args.tokens (a : Args) : List Token := a.first.tokens ++ a.rest.flatMap ArgCont.tokens

/-! ## Ranges, contexts, conditions, m4 text -/

/-- parse.y:761-768 `mls_component`. -/
inductive MlsComponent where
  | one (s : Str)
  | dotted (s t : Str)

/-- parse.y:761-768. -/
def MlsComponent.value : MlsComponent → Str
  | one s => s
  | dotted s t => s ++ '.' :: t

/-- The tokens of a component. -/
def MlsComponent.tokens : MlsComponent → List Token
  | one s => [.string s]
  | dotted s t => [.string s, .p .period, .string t]

/-- parse.y:752-759 `mls_level`. -/
inductive MlsLevel where
  | one (c : MlsComponent)
  | pair (c d : MlsComponent)

/-- parse.y:752-759. -/
def MlsLevel.value : MlsLevel → Str
  | one c => c.value
  | pair c d => c.value ++ ':' :: d.value

/-- The tokens of a level. -/
def MlsLevel.tokens : MlsLevel → List Token
  | one c => c.tokens
  | pair c d => c.tokens ++ tColon :: d.tokens

/-- parse.y:743-750 `mls_range`. -/
inductive MlsRange where
  | one (l : MlsLevel)
  | range (l m : MlsLevel)

/-- parse.y:743-750. -/
def MlsRange.value : MlsRange → Str
  | one l => l.value
  | range l m => l.value ++ '-' :: m.value

/-- The tokens of a range. -/
def MlsRange.tokens : MlsRange → List Token
  | one l => l.tokens
  | range l m => l.tokens ++ .p .dash :: m.tokens

/-- parse.y:898-902 `raw_context`. -/
structure RawContext where
  user : Str
  role : Str
  type : Str
  range : Option MlsRange

/-- The tokens of a context. -/
def RawContext.tokens (c : RawContext) : List Token :=
  [.string c.user, tColon, .string c.role, tColon, .string c.type] ++
    (match c.range with | none => [] | some r => tColon :: r.tokens)

/-- parse.y:886-896 `context`. -/
inductive Context where
  | raw (c : RawContext)
  | gen (c : RawContext)
  | gen1 (c : RawContext) (r : MlsRange)
  | gen2 (c : RawContext) (r s : MlsRange)
  | gen3 (c : RawContext) (r : MlsRange)

/-- The tokens of a context. -/
def Context.tokens : Context → List Token
  | raw c => c.tokens
  | gen c => .kw .genContext :: tOpen :: (c.tokens ++ [tClose])
  | gen1 c r => .kw .genContext :: tOpen :: (c.tokens ++ tComma :: (r.tokens ++ [tClose]))
  | gen2 c r s =>
    .kw .genContext :: tOpen :: (c.tokens ++ tComma :: (r.tokens ++ tComma :: (s.tokens ++ [tClose])))
  | gen3 c r => .kw .genContext :: tOpen :: (c.tokens ++ tComma :: (r.tokens ++ [tComma, tClose]))

/-- parse.y:688-704 `condition`. -/
inductive Condition where
  | name (s : Str)
  | not (c : Condition)
  | and (c d : Condition)
  | or (c d : Condition)
  | xor (c d : Condition)
  | equal (c d : Condition)
  | notEqual (c d : Condition)
  | paren (c : Condition)

/-- The tokens of a condition. -/
def Condition.tokens : Condition → List Token
  | name s => [.string s]
  | not c => .p .not :: c.tokens
  | and c d => c.tokens ++ .p .and :: d.tokens
  | or c d => c.tokens ++ .p .or :: d.tokens
  | xor c d => c.tokens ++ .p .xor :: d.tokens
  | equal c d => c.tokens ++ .p .equal :: d.tokens
  | notEqual c d => c.tokens ++ .p .notEqual :: d.tokens
  | paren c => tOpen :: (c.tokens ++ [tClose])

/-- parse.y:666-686 `m4_string_elem`. -/
inductive M4Elem where
  | word (s : Str)
  | punct (p : Punct)
      (h : p ∈ [.openParen, .closeParen, .openCurly, .closeCurly, .comma, .period, .colon,
        .semicolon, .dash])

/-- The token of an element. -/
def M4Elem.token : M4Elem → Token
  | word s => .string s
  | punct p _ => .p p

/-- parse.y:658-664 `arbitrary_m4_string`. -/
inductive M4String where
  | one (e : M4Elem)
  | more (e : M4Elem) (s : M4String)
  | quoted (e : M4Elem)

/-- The tokens of m4 text. -/
def M4String.tokens : M4String → List Token
  | one e => [e.token]
  | more e s => e.token :: s.tokens
  | quoted e => [tTick, e.token, tQuote]

/-! ## Statements without a node -/

/-- parse.y:817-825 `port_range`. -/
inductive PortRange where
  | numString (s : Str)
  | number (s : Str)
  | range (s t : Str)

/-- The tokens of a port range. -/
def PortRange.tokens : PortRange → List Token
  | numString s => [.numString s]
  | number s => [.number s]
  | range s t => [.number s, .p .dash, .number t]

/-- parse.y:874-878 `maybe_string_comma`. -/
def maybeStringComma : Option Str → List Token
  | none => [tComma]
  | some s => [.string s, tComma]

/-- The productions of `bare_line` whose actions only free memory: parse.y:797-847
(`genfscon`, `sid`, `portcon`, `netifcon`, `nodecon`, `fs_use`), 880-884 (`gen_user`),
908-910 (`typebounds`), 650-652 (`refpolicywarn`) and `COMMENT`. -/
inductive Silent where
  | genfscon (numeric : Bool) (fs path : Str) (spec : Bool) (c : Context)
  | sid (s : Str) (c : Context)
  | portcon (s : Str) (r : PortRange) (c : Context)
  | netifcon (s : Str) (c d : Context)
  | nodecon4 (a b : Str) (c : Context)
  | nodecon6 (a b : Str) (c : Context)
  | fsUse (k : Keyword) (h : k = .fsUseTrans ∨ k = .fsUseXattr ∨ k = .fsUseTask) (s : Str)
      (c : Context)
  | genUser (a b : Option Str) (first : SlItem) (rest : List SlItem) (r s : MlsRange)
      (t : Option MlsRange)
  | typebounds (s t : Str)
  | refpolicywarn (s : M4String)
  | comment

/-- The tokens of such a statement. -/
def Silent.tokens : Silent → List Token
  | genfscon numeric fs path spec c =>
    [.kw .genfscon, if numeric then .numString fs else .string fs, .string path] ++
      (if spec then [.fileType] else []) ++ c.tokens
  | sid s c => .kw .sid :: .string s :: c.tokens
  | portcon s r c => .kw .portcon :: .string s :: (r.tokens ++ c.tokens)
  | netifcon s c d => .kw .netifcon :: .string s :: (c.tokens ++ d.tokens)
  | nodecon4 a b c => .kw .nodecon :: .ipv4 a :: .ipv4 b :: c.tokens
  | nodecon6 a b c => .kw .nodecon :: .ipv6 a :: .ipv6 b :: c.tokens
  | fsUse k _ s c => .kw k :: .string s :: (c.tokens ++ [tSemi])
  | genUser a b first rest r s t =>
    [.kw .genUser, tOpen] ++ maybeStringComma a ++ maybeStringComma b ++ first.tokens ++
      rest.flatMap SlItem.tokens ++ tComma :: r.tokens ++ tComma :: s.tokens ++
      (match t with | none => [] | some t => tComma :: t.tokens) ++ [tClose]
  | typebounds s t => [.kw .typebounds, .string s, .string t, tSemi]
  | refpolicywarn s => [.kw .refpolicywarn, tOpen, tTick] ++ s.tokens ++ [tQuote, tClose]
  | comment => [.comment]

/-! ## Declarations and rules -/

/-- parse.y:349-384 `declaration`, `type_declaration`, `bool_declaration`. -/
inductive Decl where
  | type (name : Str)
  | typeAttrs (name : Str) (attrs : CommaList)
  | typeAlias (name : Str) (aliases : SList)
  | typeAliasAttrs (name : Str) (aliases : SList) (attrs : CommaList)
  | attr (name : Str)
  | cls (name : Str) (perms : SList)
  | role (name : Str)
  | attributeRole (name : Str)
  | bool (name : Str)
  | genBool (name dflt : Str)
  | genTunableQuoted (name dflt : Str)
  | genTunable (name dflt : Str)

/-- The tokens of a declaration. -/
def Decl.tokens : Decl → List Token
  | type n => [.kw .type, .string n, tSemi]
  | typeAttrs n a => .kw .type :: .string n :: tComma :: (a.tokens ++ [tSemi])
  | typeAlias n l => .kw .type :: .string n :: .kw .alias :: (l.tokens ++ [tSemi])
  | typeAliasAttrs n l a =>
    .kw .type :: .string n :: .kw .alias :: (l.tokens ++ tComma :: (a.tokens ++ [tSemi]))
  | attr n => [.kw .attribute, .string n, tSemi]
  | cls n l => .kw .cls :: .string n :: (l.tokens ++ [tSemi])
  | role n => [.kw .role, .string n, tSemi]
  | attributeRole n => [.kw .attributeRole, .string n, tSemi]
  | bool n => [.kw .bool, .string n, tSemi]
  | genBool n d => [.kw .genBool, tOpen, .string n, tComma, .string d, tClose]
  | genTunableQuoted n d =>
    [.kw .genTunable, tOpen, tTick, .string n, tQuote, tComma, .string d, tClose]
  | genTunable n d => [.kw .genTunable, tOpen, .string n, tComma, .string d, tClose]

/-- parse.y:401-409 `av_type`. -/
def avKeyword : AvFlavor → Keyword
  | .allow => .allow
  | .auditallow => .auditAllow
  | .dontaudit => .dontAudit
  | .neverallow => .neverAllow

/-- parse.y:415-423 `xperm_av_type`. -/
def xavKeyword : AvFlavor → Keyword
  | .allow => .allowXperm
  | .auditallow => .auditAllowXperm
  | .dontaudit => .dontAuditXperm
  | .neverallow => .neverAllowXperm

/-- The productions of `bare_line` that add exactly one node without children (and, for
declarations, the nodes of its aliases): parse.y:335, 349-423, 483-528, 621-623, 904-906. -/
inductive Simple where
  | decl (d : Decl)
  | typeAttribute (name : Str) (attrs : CommaList)
  | roleAttribute (name : Str) (attrs : CommaList)
  | typeAlias (name : Str) (aliases : SList)
  | rule (fl : AvFlavor) (src tgt cls perms : SList)
  | xrule (fl : AvFlavor) (src tgt cls : SList) (op : Str) (perms : XList)
  | roleAllow (frm to : SList)
  | roleTypes (role : Str) (types : SList)
  | typeTransition (src tgt cls : SList) (dflt : Str) (name : Option Str)
  | typeMember (src tgt cls : SList) (dflt : Str)
  | typeChange (src tgt cls : SList) (dflt : Str)
  | rangeTransition (src tgt cls : SList) (range : MlsRange)
  | roleTransition (src tgt : SList) (dflt : Str)
  | roleTransitionClass (src tgt cls : SList) (dflt : Str)
  | call (name : Str) (args : Option Args)
  | simpleMacro (name : Str)
  | permissive (name : Str)
  | semicolon

/-- The tokens of such a statement. -/
def Simple.tokens : Simple → List Token
  | decl d => d.tokens
  | typeAttribute n a => .kw .typeAttribute :: .string n :: (a.tokens ++ [tSemi])
  | roleAttribute n a => .kw .roleAttribute :: .string n :: (a.tokens ++ [tSemi])
  | typeAlias n l => .kw .typealias :: .string n :: .kw .alias :: (l.tokens ++ [tSemi])
  | rule fl s t c p =>
    .kw (avKeyword fl) :: (s.tokens ++ t.tokens ++ tColon :: c.tokens ++ p.tokens ++ [tSemi])
  | xrule fl s t c op p =>
    .kw (xavKeyword fl) :: (s.tokens ++ t.tokens ++ tColon :: c.tokens ++ .string op :: p.tokens ++
      [tSemi])
  | roleAllow f t => .kw .allow :: (f.tokens ++ t.tokens ++ [tSemi])
  | roleTypes r l => .kw .role :: .string r :: .kw .types :: (l.tokens ++ [tSemi])
  | typeTransition s t c d n =>
    .kw .typeTransition :: (s.tokens ++ t.tokens ++ tColon :: c.tokens ++ .string d ::
      (match n with | none => [] | some n => [.quoted n]) ++ [tSemi])
  | typeMember s t c d =>
    .kw .typeMember :: (s.tokens ++ t.tokens ++ tColon :: c.tokens ++ [.string d, tSemi])
  | typeChange s t c d =>
    .kw .typeChange :: (s.tokens ++ t.tokens ++ tColon :: c.tokens ++ [.string d, tSemi])
  | rangeTransition s t c r =>
    .kw .rangeTransition :: (s.tokens ++ t.tokens ++ tColon :: c.tokens ++ r.tokens ++ [tSemi])
  | roleTransition s t d => .kw .roleTransition :: (s.tokens ++ t.tokens ++ [.string d, tSemi])
  | roleTransitionClass s t c d =>
    .kw .roleTransition :: (s.tokens ++ t.tokens ++ tColon :: c.tokens ++ [.string d, tSemi])
  | call n a =>
    .string n :: tOpen :: ((match a with | none => [] | some a => a.tokens) ++ [tClose])
  | simpleMacro n => [.string n]
  | permissive n => [.kw .permissive, .string n, tSemi]
  | semicolon => [tSemi]

/-- An optional `SELINT_COMMAND` token. -/
def commandTokens : Option Str → List Token
  | none => []
  | some c => [.command c]

/-! ## Require blocks -/

/-- parse.y:585-608: the flavors declared by comma separated lists in a require block. -/
def requireKeyword : DeclFlavor → Option Keyword
  | .type => some .type
  | .attribute => some .attribute
  | .role => some .role
  | .attributeRole => some .attributeRole
  | .bool => some .bool
  | _ => none

mutual
/-- parse.y:572-576 `require_lines`. -/
inductive ReqLines where
  | one (l : ReqLine)
  | more (ls : ReqLines) (l : ReqLine)
/-- parse.y:578-582 `require_line`. -/
inductive ReqLine where
  | bare (s : ReqStmt)
  | withCommand (s : ReqStmt) (cmd : Str)
/-- parse.y:584-619 `require_bare`. -/
inductive ReqStmt where
  | decls (line : Nat) (fl : DeclFlavor) (kw : Keyword) (h : requireKeyword fl = some kw)
      (names : CommaList)
  | cls (line : Nat) (name : Str) (perms : SList)
  | ifdef (line : Nat) (negated quoted : Bool) (cond : Str) (body : ReqLines)
  | comment
end

/-- parse.y:640-644 `if_or_ifn`. -/
def ifKeyword (negated : Bool) : Token := .kw (if negated then .ifndef else .ifdef)

mutual
/-- The tokens of the lines of a require block. -/
def ReqLines.tokens : ReqLines → List Token
  | .one l => l.tokens
  | .more ls l => ls.tokens ++ l.tokens
/-- The tokens of a line. -/
def ReqLine.tokens : ReqLine → List Token
  | .bare s => s.tokens
  | .withCommand s c => s.tokens ++ [.command c]
/-- The tokens of a statement. -/
def ReqStmt.tokens : ReqStmt → List Token
  | .decls _ _ kw _ names => .kw kw :: (names.tokens ++ [tSemi])
  | .cls _ n l => .kw .cls :: .string n :: (l.tokens ++ [tSemi])
  | .ifdef _ negated quoted cond body =>
    [ifKeyword negated, tOpen, tTick, .string cond, tQuote, tComma] ++
      (if quoted then tTick :: (body.tokens ++ [tQuote]) else body.tokens) ++ [tClose]
  | .comment => [.comment]
end

/-! ## Lines -/

/-- parse.y:854-858 `define_name`. -/
def defineNameTokens (quoted : Bool) (s : Str) : List Token :=
  if quoted then [tTick, .string s, tQuote] else [.string s]

/-- parse.y:860-872 `define_content`, `define_expansion`. -/
inductive DefineContent where
  | none
  | empty
  | text (s : M4String)
  | word (s : Str)

/-- The tokens of the content. -/
def DefineContent.tokens : DefineContent → List Token
  | none => []
  | empty => [tComma]
  | text s => [tComma, tTick] ++ s.tokens ++ [tQuote]
  | word s => [tComma, .string s]

mutual
/-- parse.y:268-272 `lines`. -/
inductive Lines where
  | one (l : Line)
  | more (ls : Lines) (l : Line)
/-- parse.y:274-278 `line`. -/
inductive Line where
  | bare (s : Stmt)
  | withCommand (s : Stmt) (cmd : Str)
/-- parse.y:280-347 `bare_line`. -/
inductive Stmt where
  | silent (s : Silent)
  | simple (line : Nat) (s : Simple)
  /-- `optional_block`, first production -/
  | optional (line : Nat) (cmd : Option Str) (body : Lines)
  /-- `optional_block`, second production -/
  | optionalEmpty (line : Nat) (cmd : Option Str)
  /-- `optional_block`, third production -/
  | optionalElse (line : Nat) (cmd : Option Str) (body : Lines) (elseLine : Nat) (els : Lines)
  /-- `require`, first and second production: `cmd` after the parenthesis, `cmd'` after the
  backtick -/
  | genRequire (line : Nat) (cmd cmd' : Option Str) (body : ReqLines)
  /-- `require`, third production -/
  | genRequireUnquoted (line : Nat) (cmd : Option Str) (body : ReqLines)
  /-- `require`, fourth and fifth production -/
  | require (line : Nat) (cmd : Option Str) (body : ReqLines)
  | ifdef (line : Nat) (negated : Bool) (cond : Str) (args : M4Args)
  | ifelse (line : Nat) (args : M4Args)
  | userdebugOrEng (body : Lines)
  | tunable (line : Nat) (quoted : Bool) (cond : Condition) (args : M4Args)
  | boolean (line : Nat) (cmd : Option Str) (cond : Condition) (body : Lines)
  | booleanElse (line : Nat) (cmd : Option Str) (cond : Condition) (body els : Lines)
  | define (line : Nat) (quoted : Bool) (name : Str) (content : DefineContent)
/-- parse.y:706-710 `m4_args`. -/
inductive M4Args where
  | one (line : Nat) (a : M4Argument)
  | more (as : M4Args) (line : Nat) (a : M4Argument)
/-- parse.y:712-720 `m4_argument`. -/
inductive M4Argument where
  | empty
  | emptyQuoted
  | quoted (body : Lines)
  | word (s : Str)
end

mutual
/-- The tokens of lines. -/
def Lines.tokens : Lines → List Token
  | .one l => l.tokens
  | .more ls l => ls.tokens ++ l.tokens
/-- The tokens of a line. -/
def Line.tokens : Line → List Token
  | .bare s => s.tokens
  | .withCommand s c => s.tokens ++ [.command c]
/-- The tokens of a statement. -/
def Stmt.tokens : Stmt → List Token
  | .silent s => s.tokens
  | .simple _ s => s.tokens
  | .optional _ cmd body =>
    [.kw .optionalPolicy, tOpen, tTick] ++ commandTokens cmd ++ body.tokens ++ [tQuote, tClose]
  | .optionalEmpty _ cmd =>
    [.kw .optionalPolicy, tOpen, tTick] ++ commandTokens cmd ++ [tQuote, tClose]
  | .optionalElse _ cmd body _ els =>
    [.kw .optionalPolicy, tOpen, tTick] ++ commandTokens cmd ++ body.tokens ++
      [tQuote, tComma, tTick] ++ els.tokens ++ [tQuote, tClose]
  | .genRequire _ cmd cmd' body =>
    [.kw .genRequire, tOpen] ++ commandTokens cmd ++ tTick :: commandTokens cmd' ++ body.tokens ++
      [tQuote, tClose]
  | .genRequireUnquoted _ cmd body =>
    [.kw .genRequire, tOpen] ++ commandTokens cmd ++ body.tokens ++ [tClose]
  | .require _ cmd body => [.kw .require, tLeft] ++ commandTokens cmd ++ body.tokens ++ [tRight]
  | .ifdef _ negated cond args =>
    [ifKeyword negated, tOpen, tTick, .string cond, tQuote, tComma] ++ args.tokens ++ [tClose]
  | .ifelse _ args => [.kw .ifelse, tOpen] ++ args.tokens ++ [tClose]
  | .userdebugOrEng body =>
    [.kw .userdebugOrEng, tOpen, tTick] ++ body.tokens ++ [tQuote, tClose]
  | .tunable _ quoted cond args =>
    [.kw .tunablePolicy, tOpen] ++
      (if quoted then tTick :: (cond.tokens ++ [tQuote]) else cond.tokens) ++
      tComma :: args.tokens ++ [tClose]
  | .boolean _ cmd cond body =>
    [.kw .kwIf, tOpen] ++ commandTokens cmd ++ cond.tokens ++ [tClose, tLeft] ++ body.tokens ++
      [tRight]
  | .booleanElse _ cmd cond body els =>
    [.kw .kwIf, tOpen] ++ commandTokens cmd ++ cond.tokens ++ [tClose, tLeft] ++ body.tokens ++
      [tRight, .kw .kwElse, tLeft] ++ els.tokens ++ [tRight]
  | .define _ quoted name content =>
    [.kw .define, tOpen] ++ defineNameTokens quoted name ++ content.tokens ++ [tClose]
/-- The tokens of m4 arguments. -/
def M4Args.tokens : M4Args → List Token
  | .one _ a => a.tokens
  | .more as _ a => as.tokens ++ tComma :: a.tokens
/-- The tokens of an m4 argument. -/
def M4Argument.tokens : M4Argument → List Token
  | .empty => []
  | .emptyQuoted => [tTick, tQuote]
  | .quoted body => tTick :: (body.tokens ++ [tQuote])
  | .word s => [.string s]
end

/-! ## Files -/

/-- parse.y:240-262 `header`, `header_version`. -/
structure Header where
  line : Nat
  name : Str
  /-- `policy_module(…)` rather than `module …;` -/
  isMacro : Bool
  numberOnly : Bool
  version : Str

/-- The tokens of a header. -/
def Header.tokens (h : Header) : List Token :=
  let v : Token := if h.numberOnly then .number h.version else .versionNo h.version
  if h.isMacro then [.kw .policyModule, tOpen, .string h.name, tComma, v, tClose]
  else [.kw .module, .string h.name, v, tSemi]

/-- parse.y:934-962 `interface_def`, with `start_interface` and `if_keyword`. -/
structure IfDef where
  line : Nat
  isTemplate : Bool
  name : Str
  cmd : Option Str
  body : Option Lines

/-- The tokens of a definition. -/
def IfDef.tokens (d : IfDef) : List Token :=
  [.kw (if d.isTemplate then .template else .interface), tOpen, tTick, .string d.name, tQuote, tComma,
    tTick] ++ commandTokens d.cmd ++ (match d.body with | none => [] | some b => b.tokens) ++
    [tQuote, tClose]

/-- parse.y:928-932 `if_line`. -/
inductive IfLine where
  | defn (d : IfDef)
  | comment (line : Nat)

/-- The tokens of a line of an interface file. -/
def IfLine.tokens : IfLine → List Token
  | defn d => d.tokens
  | comment _ => [.comment]

/-- parse.y:983-1004 `support_def`; `warn` is the trailing `refpolicywarn`. -/
structure SptDef where
  name : Str
  list : SList
  warn : Option M4String

/-- The tokens of a support definition. -/
def SptDef.tokens (d : SptDef) : List Token :=
  [.kw .define, tOpen, tTick, .string d.name, tQuote, tComma, tTick] ++ d.list.tokens ++
    (match d.warn with | none => [] | some s => (Silent.refpolicywarn s).tokens) ++ [tQuote, tClose]

/-- parse.y:1062-1076 `av_permission_list`; `none` is a comment. -/
structure AvPerms where
  first : Option Str
  rest : List (Option Str)

/-- The elements of a permission list. -/
def AvPerms.all (p : AvPerms) : List (Option Str) := p.first :: p.rest

/-- The tokens of a permission list. -/
def AvPerms.tokens (p : AvPerms) : List Token :=
  tLeft :: (p.all.map (fun | none => .comment | some s => .string s) ++ [tRight])

/-- parse.y:1026-1060 `av_definition`. -/
inductive AvDef where
  | cls (name : Str) (perms : AvPerms)
  | inherits (name common : Str)
  | inheritsPerms (name common : Str) (perms : AvPerms)
  | common (name : Str) (perms : AvPerms)

/-- The tokens of a definition. -/
def AvDef.tokens : AvDef → List Token
  | cls n p => .kw .cls :: .string n :: p.tokens
  | inherits n c => [.kw .cls, .string n, .kw .inherits, .string c]
  | inheritsPerms n c p => [.kw .cls, .string n, .kw .inherits, .string c] ++ p.tokens
  | common n p => .kw .common :: .string n :: p.tokens

/-- parse.y:200-221 `selinux_file`. The lists of line numbers are the leading comments
(parse.y:229-237 `comments`); `none` in an spt or av file is a comment. -/
inductive SourceFile where
  | empty
  | te (comments : List Nat) (header : Header) (body : Lines)
  | iface (comments : List Nat) (first : IfDef) (rest : List IfLine)
  | spt (comments : List Nat) (first : SptDef) (rest : List (Option SptDef))
  | av (comments : List Nat) (first : AvDef) (rest : List (Option AvDef))
  | comments (first : Nat) (rest : List Nat)

/-- The tokens of a file. -/
def SourceFile.tokens : SourceFile → List Token
  | empty => []
  | te cs h b => cs.map (fun _ => .comment) ++ h.tokens ++ b.tokens
  | iface cs d ls => cs.map (fun _ => .comment) ++ d.tokens ++ ls.flatMap IfLine.tokens
  | spt cs d ls =>
    cs.map (fun _ => .comment) ++ d.tokens ++
      ls.flatMap (fun | none => [.comment] | some d => d.tokens)
  | av cs d ls =>
    cs.map (fun _ => .comment) ++ d.tokens ++
      ls.flatMap (fun | none => [.comment] | some d => d.tokens)
  | comments _ rest => .comment :: rest.map (fun _ => .comment)

end Selint
