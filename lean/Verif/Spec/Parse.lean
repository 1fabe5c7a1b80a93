import Verif.Model.Grammar
/-!
# Specification: the tree of a policy file

`Lines.nodes` and its companions say, production by production, which nodes a part of a file
stands for: a statement is a node, a block is a node whose children are a start marker and
then the nodes of what the block contains, statements one after the other are nodes one after
the other.

`Lines.build` refines this by the two things that depend on more than the statement itself.
A `selint-disable` command marks the node that was added last. A call of a template that
cannot be expanded gets no node.
-/

namespace Selint.Spec

/-- A node without children. -/
def leaf (data : NodeData) (line : Nat) : Tree := .mk ⟨data, none, line⟩ []

/-- The marker at the start of a block. -/
def startMarker (line : Nat) : Tree := leaf (.plain .startBlock none) line

/-- A block: its node, a marker, and then what it contains. -/
def blockNode (data : NodeData) (line : Nat) (content : List Tree) : Tree :=
  .mk ⟨data, none, line⟩ (startMarker line :: content)

/-- What the node of a declaration holds. -/
def declData : Decl → DeclData
  | .type n => ⟨.type, n, []⟩
  | .typeAttrs n a => ⟨.type, n, a.value⟩
  | .typeAlias n _ => ⟨.type, n, []⟩
  | .typeAliasAttrs n _ a => ⟨.type, n, a.value⟩
  | .attr n => ⟨.attribute, n, []⟩
  | .cls n l => ⟨.cls, n, l.value⟩
  | .role n => ⟨.role, n, []⟩
  | .attributeRole n => ⟨.attributeRole, n, []⟩
  | .bool n => ⟨.bool, n, []⟩
  | .genBool n _ => ⟨.bool, n, []⟩
  | .genTunableQuoted n _ => ⟨.bool, n, []⟩
  | .genTunable n _ => ⟨.bool, n, []⟩

/-- The aliases a declaration introduces. -/
def declAliases : Decl → List Str
  | .typeAlias _ l => l.value
  | .typeAliasAttrs _ l _ => l.value
  | _ => []

/-- What the node of a statement holds. -/
def simpleData : Simple → NodeData
  | .decl d => .decl (declData d)
  | .typeAttribute n a => .attr ⟨n, a.value, .type⟩
  | .roleAttribute n a => .attr ⟨n, a.value, .role⟩
  | .typeAlias n _ => .plain .typeAlias (some n)
  | .rule fl s t c p => .av ⟨fl, s.value, t.value, c.value, p.value⟩
  | .xrule fl s t c op p => .xav ⟨fl, s.value, t.value, c.value, p.value⟩ op
  | .roleAllow f t => .roleAllow ⟨f.value, t.value⟩
  | .roleTypes r l => .roleTypes ⟨r, l.value⟩
  | .typeTransition s t c d n => .tt ⟨s.value, t.value, c.value, d, n, .tt⟩
  | .typeMember s t c d => .tt ⟨s.value, t.value, c.value, d, none, .tm⟩
  | .typeChange s t c d => .tt ⟨s.value, t.value, c.value, d, none, .tc⟩
  | .rangeTransition s t c r => .tt ⟨s.value, t.value, c.value, r.value, none, .rt⟩
  | .roleTransition s t d => .rt ⟨s.value, t.value, [], d⟩
  | .roleTransitionClass s t c d => .rt ⟨s.value, t.value, c.value, d⟩
  | .call n none => .ifCall ⟨n, []⟩
  | .call n (some a) => .ifCall ⟨n, a.value⟩
  | .simpleMacro n => .plain .m4SimpleMacro (some n)
  | .permissive n => .plain .permissive (some n)
  | .semicolon => .plain .semicolon none

/-- The aliases a statement introduces: the children of its node. -/
def simpleAliases : Simple → List Str
  | .decl d => declAliases d
  | .typeAlias _ l => l.value
  | _ => []

/-- The node of a statement. -/
def simpleNode (line : Nat) (s : Simple) : Tree :=
  .mk ⟨simpleData s, none, line⟩ ((simpleAliases s).map fun a => leaf (.plain .alias (some a)) line)

/-! ## The nodes of a derivation -/

mutual
/-- The nodes of the lines of a require block. -/
def reqLinesNodes : ReqLines → List Tree
  | .one l => reqLineNodes l
  | .more ls l => reqLinesNodes ls ++ reqLineNodes l
/-- The nodes of a line. -/
def reqLineNodes : ReqLine → List Tree
  | .bare s => reqStmtNodes s
  | .withCommand s _ => reqStmtNodes s
/-- The nodes of a statement: a list of names is one declaration for each of them. -/
def reqStmtNodes : ReqStmt → List Tree
  | .decls line fl _ _ names => names.value.map fun n => leaf (.decl ⟨fl, n, []⟩) line
  | .cls line n l => [leaf (.decl ⟨.cls, n, l.value⟩) line]
  | .ifdef line _ _ _ body => [blockNode (.plain .ifdef none) line (reqLinesNodes body)]
  | .comment => []
end

mutual
/-- The nodes of lines. -/
def linesNodes : Lines → List Tree
  | .one l => lineNodes l
  | .more ls l => linesNodes ls ++ lineNodes l
/-- The nodes of a line. -/
def lineNodes : Line → List Tree
  | .bare s => stmtNodes s
  | .withCommand s _ => stmtNodes s
/-- The nodes of a statement. -/
def stmtNodes : Stmt → List Tree
  | .silent _ => []
  | .simple line s => [simpleNode line s]
  | .optional line _ body => [blockNode (.plain .optionalPolicy none) line (linesNodes body)]
  | .optionalEmpty line _ => [blockNode (.plain .optionalPolicy none) line []]
  | .optionalElse line _ body elseLine els =>
    [blockNode (.plain .optionalPolicy none) line (linesNodes body),
      blockNode (.plain .optionalElse none) elseLine (linesNodes els)]
  | .genRequire line _ _ body => [blockNode (.genReq false) line (reqLinesNodes body)]
  | .genRequireUnquoted line _ body => [blockNode (.genReq true) line (reqLinesNodes body)]
  | .require line _ body => [blockNode (.plain .require none) line (reqLinesNodes body)]
  | .ifdef line _ _ args => [blockNode (.plain .ifdef none) line (argsNodes args)]
  | .ifelse line args => [blockNode (.plain .ifelse none) line (argsNodes args)]
  | .userdebugOrEng body => linesNodes body
  | .tunable line _ _ args => [blockNode (.plain .tunablePolicy none) line (argsNodes args)]
  | .boolean line _ _ body => [blockNode (.plain .booleanPolicy none) line (linesNodes body)]
  | .booleanElse line _ _ body els =>
    [blockNode (.plain .booleanPolicy none) line (linesNodes body ++ linesNodes els)]
  | .define line _ _ _ => [blockNode (.plain .define none) line []]
/-- The nodes of m4 arguments: one for each. -/
def argsNodes : M4Args → List Tree
  | .one line a => [blockNode (.plain .m4Arg none) line (argNodes a)]
  | .more as line a => argsNodes as ++ [blockNode (.plain .m4Arg none) line (argNodes a)]
/-- The nodes of what an m4 argument contains. -/
def argNodes : M4Argument → List Tree
  | .empty => []
  | .emptyQuoted => []
  | .quoted body => linesNodes body
  | .word _ => []
end

/-- The node of an interface or template. -/
def ifDefNode (d : IfDef) : Tree :=
  blockNode (.plain (if d.isTemplate then .tempDef else .interfaceDef) (some d.name)) d.line
    (match d.body with | none => [] | some b => linesNodes b)

/-- The node of a line of an interface file. -/
def ifLineNode : IfLine → Tree
  | .defn d => ifDefNode d
  | .comment line => leaf (.plain .comment none) line

/-- The node of a header. -/
def headerNode (h : Header) : Tree :=
  leaf (.header ⟨if h.isMacro then .macro else .bare, h.name⟩) h.line

/-- The tree of a file: the root, then the top-level nodes. -/
def fileNodes (expected : PlainFlavor) : SourceFile → List Tree
  | .empty => [leaf (.plain .empty none) 0]
  | .te cs h b =>
    leaf (.plain expected none) 0 :: (cs.map (leaf (.plain .comment none)) ++ headerNode h :: linesNodes b)
  | .iface cs d ls =>
    leaf (.plain expected none) 0 ::
      (cs.map (leaf (.plain .comment none)) ++ ifDefNode d :: ls.map ifLineNode)
  | .spt cs _ _ => leaf (.plain expected none) 0 :: cs.map (leaf (.plain .comment none))
  | .av cs _ _ => leaf (.plain expected none) 0 :: cs.map (leaf (.plain .comment none))
  | .comments c cs => leaf (.plain expected none) 0 :: (c :: cs).map (leaf (.plain .comment none))

mutual
/-- A tree without its exceptions. -/
def bare : Tree → Tree
  | .mk i cs => .mk { i with exceptions := none } (bareList cs)
/-- Trees without their exceptions. -/
def bareList : List Tree → List Tree
  | [] => []
  | t :: ts => bare t :: bareList ts
end

/-! ## With exceptions and failed calls -/

/-- The exceptions that a command `#selint-disable:…` lists. -/
def exceptionsOf (c : Str) : Option Str :=
  if cs!"#selint-disable:".isPrefixOf c then some (c.drop 16) else none

/-- The nodes of one level so far, the latest first, and for each call still to come whether
it could be expanded. -/
structure Build where
  nodes : List Tree
  answers : List Bool

/-- One more node. -/
def Build.add (b : Build) (t : Tree) : Build := { b with nodes := t :: b.nodes }

/-- A command marks the latest node. -/
def Build.command (c : Str) (b : Build) : Build :=
  match b.nodes with
  | [] => b
  | t :: ts => { b with nodes := .mk { t.info with exceptions := exceptionsOf c } t.children :: ts }

/-- A call gets a node unless it could not be expanded. -/
def Build.call (b : Build) (t : Tree) : Build :=
  match b.answers with
  | [] => b.add t
  | true :: as => ⟨t :: b.nodes, as⟩
  | false :: as => ⟨b.nodes, as⟩

/-- A block, with the command at its start and what is built inside it. -/
def Build.block (data : NodeData) (line : Nat) (cmd : Option Str) (inside : Build → Build) (b : Build) :
    Build :=
  let i := inside ⟨[startMarker line], b.answers⟩
  ⟨.mk ⟨data, cmd.bind exceptionsOf, line⟩ i.nodes.reverse :: b.nodes, i.answers⟩

/-- Is the statement a call? -/
def isCall : Simple → Bool
  | .call _ _ => true
  | _ => false

mutual
/-- Lines of a require block. -/
def buildReqLines : ReqLines → Build → Build
  | .one l, b => buildReqLine l b
  | .more ls l, b => buildReqLine l (buildReqLines ls b)
/-- A line. -/
def buildReqLine : ReqLine → Build → Build
  | .bare s, b => buildReqStmt s b
  | .withCommand s c, b => (buildReqStmt s b).command c
/-- A statement. -/
def buildReqStmt : ReqStmt → Build → Build
  | .decls line fl _ _ names, b =>
    names.value.foldl (fun b n => b.add (leaf (.decl ⟨fl, n, []⟩) line)) b
  | .cls line n l, b => b.add (leaf (.decl ⟨.cls, n, l.value⟩) line)
  | .ifdef line _ _ _ body, b => b.block (.plain .ifdef none) line none (buildReqLines body)
  | .comment, b => b
end

mutual
/-- Lines. -/
def buildLines : Lines → Build → Build
  | .one l, b => buildLine l b
  | .more ls l, b => buildLine l (buildLines ls b)
/-- A line. -/
def buildLine : Line → Build → Build
  | .bare s, b => buildStmt s b
  | .withCommand s c, b => (buildStmt s b).command c
/-- A statement. -/
def buildStmt : Stmt → Build → Build
  | .silent _, b => b
  | .simple line s, b => if isCall s then b.call (simpleNode line s) else b.add (simpleNode line s)
  | .optional line cmd body, b => b.block (.plain .optionalPolicy none) line cmd (buildLines body)
  | .optionalEmpty line cmd, b => b.block (.plain .optionalPolicy none) line cmd id
  | .optionalElse line cmd body elseLine els, b =>
    (b.block (.plain .optionalPolicy none) line cmd (buildLines body)).block
      (.plain .optionalElse none) elseLine none (buildLines els)
  | .genRequire line cmd cmd' body, b =>
    b.block (.genReq false) line (cmd'.or cmd) (buildReqLines body)
  | .genRequireUnquoted line cmd body, b => b.block (.genReq true) line cmd (buildReqLines body)
  | .require line cmd body, b => b.block (.plain .require none) line cmd (buildReqLines body)
  | .ifdef line _ _ args, b => b.block (.plain .ifdef none) line none (buildArgs args)
  | .ifelse line args, b => b.block (.plain .ifelse none) line none (buildArgs args)
  | .userdebugOrEng body, b => buildLines body b
  | .tunable line _ _ args, b => b.block (.plain .tunablePolicy none) line none (buildArgs args)
  | .boolean line cmd _ body, b => b.block (.plain .booleanPolicy none) line cmd (buildLines body)
  | .booleanElse line cmd _ body els, b =>
    b.block (.plain .booleanPolicy none) line cmd fun b => buildLines els (buildLines body b)
  | .define line _ _ _, b => b.block (.plain .define none) line none id
/-- m4 arguments. -/
def buildArgs : M4Args → Build → Build
  | .one line a, b => b.block (.plain .m4Arg none) line none (buildArg a)
  | .more as line a, b => (buildArgs as b).block (.plain .m4Arg none) line none (buildArg a)
/-- What an m4 argument contains. -/
def buildArg : M4Argument → Build → Build
  | .empty, b => b
  | .emptyQuoted, b => b
  | .quoted body, b => buildLines body b
  | .word _, b => b
end

/-- The body of an interface or template. -/
def buildBody : Option Lines → Build → Build
  | none, b => b
  | some body, b => buildLines body b

/-- An interface or template. -/
def buildIfDef (d : IfDef) (b : Build) : Build :=
  b.block (.plain (if d.isTemplate then .tempDef else .interfaceDef) (some d.name)) d.line d.cmd
    (buildBody d.body)

/-- A line of an interface file. -/
def buildIfLine (b : Build) : IfLine → Build
  | .defn d => buildIfDef d b
  | .comment line => b.add (leaf (.plain .comment none) line)

/-- A file; the root node is the first node. -/
def buildFile (f : SourceFile) (expected : PlainFlavor) (answers : List Bool) : Build :=
  let comments := fun (cs : List Nat) =>
    cs.foldl (fun b c => b.add (leaf (.plain .comment none) c))
      (⟨[leaf (.plain expected none) 0], answers⟩ : Build)
  match f with
  | .empty => ⟨[leaf (.plain .empty none) 0], answers⟩
  | .te cs h body => buildLines body ((comments cs).add (headerNode h))
  | .iface cs d ls => ls.foldl buildIfLine (buildIfDef d (comments cs))
  | .spt cs _ _ => comments cs
  | .av cs _ _ => comments cs
  | .comments c cs => comments (c :: cs)

end Selint.Spec
