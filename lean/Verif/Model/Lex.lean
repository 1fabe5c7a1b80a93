import Verif.Model.Token
/-!
# The scanner (lex.l)

flex is trusted to turn the rules of lex.l into the scanner its manual describes: at every
position the rule with the longest match is taken, among those the first one, and the text of
a trailing context (`$`: a newline) counts for the length but is not consumed. Regular
expressions are matched here with derivatives, which is how the model computes; what matches
is defined independently in `Spec/Lex.lean`.

The line cache of `YY_INPUT` (lex.l:35-84), which only serves error messages, is in `LineCache.lean`.
-/

namespace Selint

/-- Regular expressions. -/
inductive Rx where
  | empty
  | eps
  | chars (p : Char → Bool)
  | seq (a b : Rx)
  | alt (a b : Rx)
  | star (a : Rx)

namespace Rx

/-- Does the expression match the empty text? -/
def nullable : Rx → Bool
  | empty => false
  | eps => true
  | chars _ => false
  | seq a b => a.nullable && b.nullable
  | alt a b => a.nullable || b.nullable
  | star _ => true

/-- What may follow after the character. -/
def deriv (c : Char) : Rx → Rx
  | empty => empty
  | eps => empty
  | chars p => if p c then eps else empty
  | seq a b => if a.nullable then alt (seq (a.deriv c) b) (b.deriv c) else seq (a.deriv c) b
  | alt a b => alt (a.deriv c) (b.deriv c)
  | star a => seq (a.deriv c) (star a)

/-- Can the expression be dropped because it matches nothing? (Only simple cases.) -/
def dead : Rx → Bool
  | empty => true
  | eps => false
  | chars _ => false
  | seq a b => a.dead || b.dead
  | alt a b => a.dead && b.dead
  | star _ => false

/-- The length of the longest match at the beginning of the text. -/
def longest (r : Rx) : Str → Option Nat
  | [] => if r.nullable then some 0 else none
  | c :: s =>
    if r.dead then none
    else
      match (r.deriv c).longest s with
      | some n => some (n + 1)
      | none => if r.nullable then some 0 else none

/-- A character. -/
def char (c : Char) : Rx := chars (fun d => d == c)

/-- A literal text. -/
def lit : Str → Rx
  | [] => eps
  | c :: s => seq (char c) (lit s)

/-- `r?` -/
def opt (r : Rx) : Rx := alt r eps

/-- `r+` -/
def plus (r : Rx) : Rx := seq r (star r)

/-- `r{1,n}` -/
def upTo (r : Rx) : Nat → Rx
  | 0 => empty
  | 1 => r
  | n + 1 => seq r (opt (upTo r n))

end Rx

/-! ## Character classes -/

/-- `[0-9]` -/
def lxDigit (c : Char) : Bool := decide ('0' ≤ c ∧ c ≤ '9')

/-- `[a-zA-Z]` -/
def lxAlpha (c : Char) : Bool := decide ('a' ≤ c ∧ c ≤ 'z') || decide ('A' ≤ c ∧ c ≤ 'Z')

/-- `[0-9A-Fa-f]` -/
def lxHex (c : Char) : Bool := lxDigit c || decide ('A' ≤ c ∧ c ≤ 'F') || decide ('a' ≤ c ∧ c ≤ 'f')

/-- `[a-zA-Z\$\/]` -/
def lxWordStart (c : Char) : Bool := lxAlpha c || c == '$' || c == '/'

/-- `[a-zA-Z0-9_\$\*\/\-]` -/
def lxWord (c : Char) : Bool :=
  lxAlpha c || lxDigit c || c == '_' || c == '$' || c == '*' || c == '/' || c == '-'

/-- `.` -/
def lxAny (c : Char) : Bool := c != '\n'

/-! ## Rules -/

/-- A rule: the expression, whether it ends in `$`, and what the action returns for the
matched text (`none`: nothing, scanning goes on). -/
structure LexRule where
  rx : Rx
  eol : Bool
  act : Str → Option Token

/-- lex.l:96-151: the spelling of the reserved words. -/
def Keyword.spelling : Keyword → Str
  | .policyModule => cs!"policy_module"
  | .module => cs!"module"
  | .type => cs!"type"
  | .typealias => cs!"typealias"
  | .alias => cs!"alias"
  | .attribute => cs!"attribute"
  | .bool => cs!"bool"
  | .typeAttribute => cs!"typeattribute"
  | .roleAttribute => cs!"roleattribute"
  | .role => cs!"role"
  | .types => cs!"types"
  | .attributeRole => cs!"attribute_role"
  | .allow => cs!"allow"
  | .allowXperm => cs!"allowxperm"
  | .auditAllow => cs!"auditallow"
  | .auditAllowXperm => cs!"auditallowxperm"
  | .dontAudit => cs!"dontaudit"
  | .dontAuditXperm => cs!"dontauditxperm"
  | .neverAllow => cs!"neverallow"
  | .neverAllowXperm => cs!"neverallowxperm"
  | .typeTransition => cs!"type_transition"
  | .typeMember => cs!"type_member"
  | .typeChange => cs!"type_change"
  | .rangeTransition => cs!"range_transition"
  | .roleTransition => cs!"role_transition"
  | .optionalPolicy => cs!"optional_policy"
  | .genRequire => cs!"gen_require"
  | .genBool => cs!"gen_bool"
  | .genTunable => cs!"gen_tunable"
  | .require => cs!"require"
  | .tunablePolicy => cs!"tunable_policy"
  | .ifelse => cs!"ifelse"
  | .refpolicywarn => cs!"refpolicywarn"
  | .cls => cs!"class"
  | .common => cs!"common"
  | .inherits => cs!"inherits"
  | .kwIf => cs!"if"
  | .kwElse => cs!"else"
  | .ifdef => cs!"ifdef"
  | .ifndef => cs!"ifndef"
  | .genfscon => cs!"genfscon"
  | .sid => cs!"sid"
  | .portcon => cs!"portcon"
  | .netifcon => cs!"netifcon"
  | .nodecon => cs!"nodecon"
  | .fsUseTrans => cs!"fs_use_trans"
  | .fsUseXattr => cs!"fs_use_xattr"
  | .fsUseTask => cs!"fs_use_task"
  | .define => cs!"define"
  | .genUser => cs!"gen_user"
  | .genContext => cs!"gen_context"
  | .permissive => cs!"permissive"
  | .typebounds => cs!"typebounds"
  | .interface => cs!"interface"
  | .template => cs!"template"
  | .userdebugOrEng => cs!"userdebug_or_eng"

/-- The reserved words in the order of the rules. -/
def allKeywords : List Keyword :=
  [.policyModule, .module, .type, .typealias, .alias, .attribute, .bool, .typeAttribute,
    .roleAttribute, .role, .types, .attributeRole, .allow, .allowXperm, .auditAllow,
    .auditAllowXperm, .dontAudit, .dontAuditXperm, .neverAllow, .neverAllowXperm,
    .typeTransition, .typeMember, .typeChange, .rangeTransition, .roleTransition,
    .optionalPolicy, .genRequire, .genBool, .genTunable, .require, .tunablePolicy, .ifelse,
    .refpolicywarn, .cls, .common, .inherits, .kwIf, .kwElse, .ifdef, .ifndef, .genfscon, .sid,
    .portcon, .netifcon, .nodecon, .fsUseTrans, .fsUseXattr, .fsUseTask, .define, .genUser,
    .genContext, .permissive, .typebounds, .interface, .template, .userdebugOrEng]

/-- lex.l:160-178: the spelling of punctuation. -/
def Punct.spelling : Punct → Str
  | .openParen => cs!"("
  | .closeParen => cs!")"
  | .comma => cs!","
  | .period => cs!"."
  | .openCurly => cs!"{"
  | .closeCurly => cs!"}"
  | .colon => cs!":"
  | .semicolon => cs!";"
  | .backtick => cs!"`"
  | .singleQuote => cs!"'"
  | .tilda => cs!"~"
  | .star => cs!"*"
  | .dash => cs!"-"
  | .and => cs!"&&"
  | .or => cs!"||"
  | .xor => cs!"^"
  | .notEqual => cs!"!="
  | .not => cs!"!"
  | .equal => cs!"=="

/-- The punctuation in the order of the rules. -/
def allPuncts : List Punct :=
  [.openParen, .closeParen, .comma, .period, .openCurly, .closeCurly, .colon, .semicolon,
    .backtick, .singleQuote, .tilda, .star, .dash, .and, .or, .xor, .notEqual, .not, .equal]

/-- `[0-9]+` -/
def rxNumber : Rx := .plus (.chars lxDigit)

/-- lex.l:152 -/
def rxVersion : Rx :=
  .seq rxNumber (.seq (.char '.') (.seq rxNumber (.opt (.seq (.char '.') rxNumber))))

/-- lex.l:154 -/
def rxString : Rx := .seq (.chars lxWordStart) (.star (.chars lxWord))

/-- lex.l:155 -/
def rxNumString : Rx := .seq (.chars (fun c => lxDigit c || lxWordStart c)) (.star (.chars lxWord))

/-- `[0-9]{1,3}` -/
def rxByte : Rx := .upTo (.chars lxDigit) 3

/-- lex.l:156 -/
def rxIpv4 : Rx :=
  .seq rxByte (.seq (.char '.') (.seq rxByte (.seq (.char '.') (.seq rxByte (.seq (.char '.') rxByte)))))

/-- `([0-9A-Fa-f]{1,4})?` -/
def rxGroup : Rx := .opt (.upTo (.chars lxHex) 4)

/-- lex.l:157 -/
def rxIpv6 : Rx :=
  .seq rxGroup (.seq (.char ':') (.seq (.star (.chars (fun c => lxHex c || c == ':')))
    (.seq (.char ':') rxGroup)))

/-- `[a-zA-Z0-9_\.\-\:~\$]` -/
def lxQuoted (c : Char) : Bool :=
  lxAlpha c || lxDigit c || c == '_' || c == '.' || c == '-' || c == ':' || c == '~' || c == '$'

/-- lex.l:158 -/
def rxQuoted : Rx := .seq (.char '"') (.seq (.star (.chars lxQuoted)) (.char '"'))

/-- lex.l:159 -/
def rxFileType : Rx :=
  .seq (.char '-') (.seq (.chars (fun c => c ∈ cs!"-ldbcsp")) (.chars (fun c => c == ' ' || c == '\t')))

/-- `[CSWEF]\-[0-9]+` -/
def rxId : Rx := .seq (.chars (fun c => c ∈ cs!"CSWEF")) (.seq (.char '-') rxNumber)

/-- lex.l:179, without `$` -/
def rxCommand : Rx :=
  .seq (.lit cs!"#selint-disable:") (.seq (.opt (.char ' ')) (.seq rxId
    (.star (.seq (.char ',') (.seq (.opt (.char ' ')) rxId)))))

/-- lex.l:180, without `$` -/
def rxComment : Rx := .seq (.char '#') (.star (.chars lxAny))

/-- lex.l:181, without `$` -/
def rxDnl : Rx := .seq (.lit cs!"dnl") (.opt (.star (.chars lxAny)))

/-- lex.l:182 -/
def rxSpace : Rx := .chars (fun c => c == ' ' || c == '\t' || c == '\n' || c == '\r')

/-- lex.l:96-151. -/
def keywordRules : List LexRule := allKeywords.map fun k => ⟨.lit k.spelling, false, fun _ => some (.kw k)⟩

/-- lex.l:152-159. -/
def wordRules : List LexRule :=
  [⟨rxVersion, false, fun t => some (.versionNo t)⟩,
    ⟨rxNumber, false, fun t => some (.number t)⟩,
    ⟨rxString, false, fun t => some (.string t)⟩,
    ⟨rxNumString, false, fun t => some (.numString t)⟩,
    ⟨rxIpv4, false, fun t => some (.ipv4 t)⟩,
    ⟨rxIpv6, false, fun t => some (.ipv6 t)⟩,
    ⟨rxQuoted, false, fun t => some (.quoted t)⟩,
    ⟨rxFileType, false, fun _ => some .fileType⟩]

/-- lex.l:160-178. -/
def punctRules : List LexRule := allPuncts.map fun p => ⟨.lit p.spelling, false, fun _ => some (.p p)⟩

/-- lex.l:183: the symbol is the first character of the text. -/
def unknownToken : Str → Option Token
  | [] => none
  | c :: _ => some (.unknown c)

/-- lex.l:179-183. -/
def lastRules : List LexRule :=
  [⟨rxCommand, true, fun t => some (.command t)⟩,
    ⟨rxComment, true, fun _ => some .comment⟩,
    ⟨rxDnl, true, fun _ => none⟩,
    ⟨rxSpace, false, fun _ => none⟩,
    ⟨.chars lxAny, false, unknownToken⟩]

/-- lex.l:96-183, in order. -/
def lexRules : List LexRule := keywordRules ++ wordRules ++ punctRules ++ lastRules

namespace LexRule

/-- The expression with the trailing context. -/
def full (r : LexRule) : Rx := if r.eol then .seq r.rx (.char '\n') else r.rx

/-- The length of the text, from the length of the match. -/
def textLength (r : LexRule) (n : Nat) : Nat := if r.eol then n - 1 else n

end LexRule

/-- The rule that is taken, with the length of its match (including the trailing context):
the longest match, the first one of those. -/
def bestRule : List LexRule → Str → Option (LexRule × Nat)
  | [], _ => none
  | r :: rs, s =>
    match r.full.longest s, bestRule rs s with
    | none, b => b
    | some n, none => some (r, n)
    | some n, some (r', n') => if n < n' then some (r', n') else some (r, n)

/-- One step of the scanner. -/
inductive LexStep where
  /-- no rule matches, or only the empty text ("flex scanner jammed" or an endless loop) -/
  | jam
  | step (t : Option Token) (text rest : Str)
  deriving DecidableEq, Repr

/-- Take the best rule. -/
def lexStep (s : Str) : LexStep :=
  match bestRule lexRules s with
  | none => .jam
  | some (r, n) =>
    let k := r.textLength n
    if k = 0 then .jam else .step (r.act (s.take k)) (s.take k) (s.drop k)

/-- The number of lines a text ends: `yylineno` is advanced by it (`%option yylineno`). -/
def newlines (s : Str) : Nat := s.count '\n'

/-- The tokens of a text with their line numbers (lex.l:29-33: every token is given the value
of `yylineno` after its text), from line `line` on. The first argument bounds the number of
steps. `none`: the scanner jams, or the bound is reached (`C48_total` excludes both). -/
def lexFrom : Nat → Nat → Str → Option (List (Nat × Token))
  | _, _, [] => some []
  | 0, _, _ :: _ => none
  | fuel + 1, line, s =>
    match lexStep s with
    | .jam => none
    | .step t text rest =>
      match lexFrom fuel (line + newlines text) rest with
      | none => none
      | some ts =>
        match t with
        | none => some ts
        | some t => some ((line + newlines text, t) :: ts)

/-- The tokens of a file. -/
def lexFile (s : Str) : Option (List (Nat × Token)) := lexFrom s.length 1 s

end Selint
