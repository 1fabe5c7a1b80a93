import Verif.Model.LalrDriver
/-!
# What bison says about a syntax error (parse.y)

`%define parse.error verbose` (parse.y:17): the message names the token that was read and, if there
are not more than four, the tokens for which the state has an entry of its own. Then `yyparse` takes
symbols off the stack until a state shifts the token `error` (parse.y:341-346), whose action has a
message too, and aborts; if there is no such state, it aborts at once.

Simplification: the line of the end of the text, which is that of the last text that the scanner
matched (it may be white space), is an argument; `scanText` has it.
-/

namespace Selint
namespace Lr

/-- parse.y:82-177: the names of the tokens, as bison prints them. What it calls the end of the text
depends on its version (`$end`, `end of file`) and is an argument. -/
def Term.name (endName : Str) : Term → Str
  | .string => cs!"STRING"
  | .numString => cs!"NUM_STRING"
  | .ipv4 => cs!"IPV4"
  | .ipv6 => cs!"IPV6"
  | .number => cs!"NUMBER"
  | .quoted => cs!"QUOTED_STRING"
  | .versionNo => cs!"VERSION_NO"
  | .command => cs!"SELINT_COMMAND"
  | .unknown => cs!"UNKNOWN_TOKEN"
  | .kw .policyModule => cs!"POLICY_MODULE"
  | .kw .module => cs!"MODULE"
  | .kw .type => cs!"TYPE"
  | .kw .typealias => cs!"TYPEALIAS"
  | .kw .alias => cs!"ALIAS"
  | .kw .attribute => cs!"ATTRIBUTE"
  | .kw .bool => cs!"BOOL"
  | .kw .typeAttribute => cs!"TYPE_ATTRIBUTE"
  | .kw .roleAttribute => cs!"ROLE_ATTRIBUTE"
  | .kw .role => cs!"ROLE"
  | .kw .types => cs!"TYPES"
  | .kw .attributeRole => cs!"ATTRIBUTE_ROLE"
  | .kw .allow => cs!"ALLOW"
  | .kw .allowXperm => cs!"ALLOW_XPERM"
  | .kw .auditAllow => cs!"AUDIT_ALLOW"
  | .kw .auditAllowXperm => cs!"AUDIT_ALLOW_XPERM"
  | .kw .dontAudit => cs!"DONT_AUDIT"
  | .kw .dontAuditXperm => cs!"DONT_AUDIT_XPERM"
  | .kw .neverAllow => cs!"NEVER_ALLOW"
  | .kw .neverAllowXperm => cs!"NEVER_ALLOW_XPERM"
  | .kw .typeTransition => cs!"TYPE_TRANSITION"
  | .kw .typeMember => cs!"TYPE_MEMBER"
  | .kw .typeChange => cs!"TYPE_CHANGE"
  | .kw .rangeTransition => cs!"RANGE_TRANSITION"
  | .kw .roleTransition => cs!"ROLE_TRANSITION"
  | .kw .optionalPolicy => cs!"OPTIONAL_POLICY"
  | .kw .genRequire => cs!"GEN_REQUIRE"
  | .kw .genBool => cs!"GEN_BOOL"
  | .kw .genTunable => cs!"GEN_TUNABLE"
  | .kw .require => cs!"REQUIRE"
  | .kw .tunablePolicy => cs!"TUNABLE_POLICY"
  | .kw .ifelse => cs!"IFELSE"
  | .kw .refpolicywarn => cs!"REFPOLICYWARN"
  | .kw .cls => cs!"CLASS"
  | .kw .common => cs!"COMMON"
  | .kw .inherits => cs!"INHERITS"
  | .kw .ifdef => cs!"IFDEF"
  | .kw .ifndef => cs!"IFNDEF"
  | .kw .kwIf => cs!"IF"
  | .kw .kwElse => cs!"ELSE"
  | .kw .genfscon => cs!"GENFSCON"
  | .kw .sid => cs!"SID"
  | .kw .portcon => cs!"PORTCON"
  | .kw .netifcon => cs!"NETIFCON"
  | .kw .nodecon => cs!"NODECON"
  | .kw .fsUseTrans => cs!"FS_USE_TRANS"
  | .kw .fsUseXattr => cs!"FS_USE_XATTR"
  | .kw .fsUseTask => cs!"FS_USE_TASK"
  | .kw .define => cs!"DEFINE"
  | .kw .genUser => cs!"GEN_USER"
  | .kw .genContext => cs!"GEN_CONTEXT"
  | .kw .permissive => cs!"PERMISSIVE"
  | .kw .typebounds => cs!"TYPEBOUNDS"
  | .kw .interface => cs!"INTERFACE"
  | .kw .template => cs!"TEMPLATE"
  | .kw .userdebugOrEng => cs!"USERDEBUG_OR_ENG"
  | .fileType => cs!"FILE_TYPE_SPECIFIER"
  | .p .openParen => cs!"OPEN_PAREN"
  | .p .comma => cs!"COMMA"
  | .p .period => cs!"PERIOD"
  | .p .closeParen => cs!"CLOSE_PAREN"
  | .p .openCurly => cs!"OPEN_CURLY"
  | .p .closeCurly => cs!"CLOSE_CURLY"
  | .p .colon => cs!"COLON"
  | .p .semicolon => cs!"SEMICOLON"
  | .p .backtick => cs!"BACKTICK"
  | .p .singleQuote => cs!"SINGLE_QUOTE"
  | .p .tilda => cs!"TILDA"
  | .p .star => cs!"STAR"
  | .p .dash => cs!"DASH"
  | .p .and => cs!"AND"
  | .p .or => cs!"OR"
  | .p .xor => cs!"XOR"
  | .p .not => cs!"NOT"
  | .p .equal => cs!"EQUAL"
  | .p .notEqual => cs!"NOT_EQUAL"
  | .comment => cs!"COMMENT"
  | .eof => endName

/-- parse.y:82-177: the tokens in the order of their declaration, which is the order of bison's
numbers. -/
def declared : List Term := [
  .eof, .string, .numString, .ipv4, .ipv6, .number, .quoted, .versionNo, .command, .unknown,
  .kw .policyModule, .kw .module, .kw .type, .kw .typealias, .kw .alias, .kw .attribute, .kw .bool,
  .kw .typeAttribute, .kw .roleAttribute, .kw .role, .kw .types, .kw .attributeRole, .kw .allow,
  .kw .allowXperm, .kw .auditAllow, .kw .auditAllowXperm, .kw .dontAudit, .kw .dontAuditXperm,
  .kw .neverAllow, .kw .neverAllowXperm, .kw .typeTransition, .kw .typeMember, .kw .typeChange,
  .kw .rangeTransition, .kw .roleTransition, .kw .optionalPolicy, .kw .genRequire, .kw .genBool,
  .kw .genTunable, .kw .require, .kw .tunablePolicy, .kw .ifelse, .kw .refpolicywarn, .kw .cls,
  .kw .common, .kw .inherits, .kw .ifdef, .kw .ifndef, .kw .kwIf, .kw .kwElse, .kw .genfscon,
  .kw .sid, .kw .portcon, .kw .netifcon, .kw .nodecon, .kw .fsUseTrans, .kw .fsUseXattr,
  .kw .fsUseTask, .kw .define, .kw .genUser, .kw .genContext, .kw .permissive, .kw .typebounds,
  .kw .interface, .kw .template, .kw .userdebugOrEng, .fileType, .p .openParen, .p .comma,
  .p .period, .p .closeParen, .p .openCurly, .p .closeCurly, .p .colon, .p .semicolon,
  .p .backtick, .p .singleQuote, .p .tilda, .p .star, .p .dash, .p .and, .p .or, .p .xor, .p .not,
  .p .equal, .p .notEqual, .comment]

/-- parse.y:17: does the state have an entry of its own for the token? Where there is a default
reduction, the tokens with that reduction have none. -/
def lalrExplicit (s : Nat) (x : Term) : Bool :=
  (s == lalrFinal && x.code == Term.code .eof) ||
  (lalrRow s).any fun r => r.shifts.any (·.1 == x.code) ||
    r.reductions.any fun m => m.1.testBit x.code && !(r.default == some m.2)

/-- parse.y:17, bison's `yypcontext_expected_tokens`. -/
def lalrExpected (s : Nat) : List Term := declared.filter (lalrExplicit s)

/-- parse.y:17, bison's `yysyntax_error`: the names of what was expected. -/
def expectingText (endName : Str) : List Term → Str
  | [] => []
  | x :: xs => cs!", expecting " ++ x.name endName ++ xs.flatMap fun y => cs!" or " ++ y.name endName

/-- parse.y:17, bison's `yysyntax_error`: not more than four tokens are named, or none. -/
def syntaxMessage (endName : Str) (s : Nat) (x : Term) : Str :=
  cs!"syntax error, unexpected " ++ x.name endName ++
    expectingText endName (if (lalrExpected s).length ≤ 4 then lalrExpected s else [])

/-- parse.y:280-346: a state shifts the token `error` if a `bare_line` may begin there, so that it
has a successor for one. -/
def shiftsError (s : Nat) : Bool := (lalrGoto s (Nt.code .bareLine)).isSome

/-- parse.y:341-346, bison's `yyerrlab1`: the first line of the token `error`, which is that of the
last symbol taken off the stack, or else of the token that was read. -/
def recoverLine : List Nat → List Span → Nat → Option Nat
  | [], _, _ => none
  | s :: ss, spans, first =>
    if shiftsError s then some first else
    match spans with
    | [] => none
    | sp :: rest => recoverLine ss rest sp.first

/-- lex.l:28-32: the line of the token that was read. -/
def Drive.lookLine (endLine : Nat) (d : Drive) : Nat :=
  match d.l.c.look with
  | some ⟨.t .eof, _⟩ => endLine
  | _ => d.l.look

/-- parse.y:341-346: the messages about a syntax error, with their lines. -/
def Drive.syntaxErrors (endName : Str) (endLine : Nat) (d : Drive) : List (Nat × Str) :=
  match d.l.c.look, d.states with
  | some ⟨.t x, _⟩, s :: _ =>
    if lalrAction s x.code = none then
      (d.lookLine endLine, syntaxMessage endName s x) ::
        ((recoverLine d.states d.l.spans (d.lookLine endLine)).map
          (·, cs!"Error: Invalid statement")).toList
    else []
  | _, _ => []

/-- parse.y:341-346, bison's `yyerrorlab`: when an action comes to `YYERROR` (it has called `yyerror`
itself), its production is taken off the stack; the message about the statement, with its line. -/
def Drive.actionErrors (d : Drive) : List (Nat × Str) :=
  match d.l.c.look, d.states with
  | some e, s :: _ =>
    match lalrAction s e.sym.code with
    | some (.reduce p) =>
      match rules[p]? with
      | some r =>
        match d.l.step (.reduce r) with
        | some (.ok (.error l)) =>
          ((recoverLine (d.states.drop r.rhs.length) l.spans
            (spanOf r.rhs.length d.l.spans).first).map (·, cs!"Error: Invalid statement")).toList
        | _ => []
      | none => []
    | _ => []
  | _, _ => []

end Lr
end Selint
