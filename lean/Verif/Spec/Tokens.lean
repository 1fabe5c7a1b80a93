import Verif.Spec.Lex
import Verif.Spec.Exceptions
/-!
# The tokens of the policy language

Independent of the scanner's regular expressions: for every kind of token the texts that are
written for it, and which of them is taken at the beginning of a text.
-/

namespace Selint.Spec

/-- The reserved words and what they stand for. -/
def keywordTable : List (Str × Keyword) :=
  [(cs!"alias", .alias), (cs!"allow", .allow), (cs!"allowxperm", .allowXperm),
    (cs!"attribute", .attribute), (cs!"attribute_role", .attributeRole),
    (cs!"auditallow", .auditAllow), (cs!"auditallowxperm", .auditAllowXperm), (cs!"bool", .bool),
    (cs!"class", .cls), (cs!"common", .common), (cs!"define", .define),
    (cs!"dontaudit", .dontAudit), (cs!"dontauditxperm", .dontAuditXperm), (cs!"else", .kwElse),
    (cs!"fs_use_task", .fsUseTask), (cs!"fs_use_trans", .fsUseTrans),
    (cs!"fs_use_xattr", .fsUseXattr), (cs!"gen_bool", .genBool), (cs!"gen_context", .genContext),
    (cs!"gen_require", .genRequire), (cs!"gen_tunable", .genTunable), (cs!"gen_user", .genUser),
    (cs!"genfscon", .genfscon), (cs!"if", .kwIf), (cs!"ifdef", .ifdef), (cs!"ifelse", .ifelse),
    (cs!"ifndef", .ifndef), (cs!"inherits", .inherits), (cs!"interface", .interface),
    (cs!"module", .module), (cs!"netifcon", .netifcon), (cs!"neverallow", .neverAllow),
    (cs!"neverallowxperm", .neverAllowXperm), (cs!"nodecon", .nodecon),
    (cs!"optional_policy", .optionalPolicy), (cs!"permissive", .permissive),
    (cs!"policy_module", .policyModule), (cs!"portcon", .portcon),
    (cs!"range_transition", .rangeTransition), (cs!"refpolicywarn", .refpolicywarn),
    (cs!"require", .require), (cs!"role", .role), (cs!"role_transition", .roleTransition),
    (cs!"roleattribute", .roleAttribute), (cs!"sid", .sid), (cs!"template", .template),
    (cs!"tunable_policy", .tunablePolicy), (cs!"type", .type), (cs!"type_change", .typeChange),
    (cs!"type_member", .typeMember), (cs!"type_transition", .typeTransition),
    (cs!"typealias", .typealias), (cs!"typeattribute", .typeAttribute),
    (cs!"typebounds", .typebounds), (cs!"types", .types), (cs!"userdebug_or_eng", .userdebugOrEng)]

/-- The punctuation marks. -/
def punctTable : List (Str × Punct) :=
  [(cs!"(", .openParen), (cs!")", .closeParen), (cs!",", .comma), (cs!".", .period),
    (cs!"{", .openCurly), (cs!"}", .closeCurly), (cs!":", .colon), (cs!";", .semicolon),
    (cs!"`", .backtick), (cs!"'", .singleQuote), (cs!"~", .tilda), (cs!"*", .star),
    (cs!"-", .dash), (cs!"&&", .and), (cs!"||", .or), (cs!"^", .xor), (cs!"!=", .notEqual),
    (cs!"!", .not), (cs!"==", .equal)]

/-- A number: one or more digits. -/
def IsNumber (s : Str) : Prop := s ≠ [] ∧ ∀ c ∈ s, c.isDigit = true

/-- A hexadecimal digit. -/
def IsHex (c : Char) : Prop := c.isDigit = true ∨ c ∈ cs!"abcdefABCDEF"

/-- A part of an IPv4 address: one to three digits (not: a number below 256). -/
def IsByte (s : Str) : Prop := IsNumber s ∧ s.length ≤ 3

/-- An end of an IPv6 address: at most four hexadecimal digits. -/
def IsGroup (s : Str) : Prop := s.length ≤ 4 ∧ ∀ c ∈ s, IsHex c

/-- `Written kind eol token text`: the text can be written for the token (`none`: for nothing,
it is skipped); if `eol`, only at the end of a line. Kinds are numbered in the order in which
they are preferred. -/
inductive Written : (kind : Nat) → (eol : Bool) → Option Token → Str → Prop
  /-- a reserved word -/
  | keyword {w : Str} {k : Keyword} (h : (w, k) ∈ keywordTable) : Written 0 false (some (.kw k)) w
  /-- `1.2` -/
  | version₂ {a b : Str} (ha : IsNumber a) (hb : IsNumber b) :
      Written 1 false (some (.versionNo (a ++ '.' :: b))) (a ++ '.' :: b)
  /-- `1.2.3` -/
  | version₃ {a b c : Str} (ha : IsNumber a) (hb : IsNumber b) (hc : IsNumber c) :
      Written 1 false (some (.versionNo (a ++ '.' :: (b ++ '.' :: c)))) (a ++ '.' :: (b ++ '.' :: c))
  | number {a : Str} (ha : IsNumber a) : Written 2 false (some (.number a)) a
  /-- a name -/
  | word {w : Str} (h : IsNameWord w) : Written 3 false (some (.string w)) w
  /-- a word that may also begin with a digit -/
  | numWord {c : Char} {w : Str} (hc : c.isAlpha = true ∨ c.isDigit = true ∨ c ∈ cs!"$/")
      (hw : ∀ d ∈ w, WordChar d) : Written 4 false (some (.numString (c :: w))) (c :: w)
  | ipv4 {a b c d : Str} (ha : IsByte a) (hb : IsByte b) (hc : IsByte c) (hd : IsByte d) :
      Written 5 false (some (.ipv4 (a ++ '.' :: (b ++ '.' :: (c ++ '.' :: d)))))
        (a ++ '.' :: (b ++ '.' :: (c ++ '.' :: d)))
  /-- two colons, with hexadecimal digits and colons before, between and behind -/
  | ipv6 {a m b : Str} (ha : IsGroup a) (hm : ∀ c ∈ m, IsHex c ∨ c = ':') (hb : IsGroup b) :
      Written 6 false (some (.ipv6 (a ++ ':' :: (m ++ ':' :: b)))) (a ++ ':' :: (m ++ ':' :: b))
  /-- letters, digits and a few other characters between double quotes -/
  | quoted {q : Str} (h : ∀ c ∈ q, c.isAlpha = true ∨ c.isDigit = true ∨ c ∈ cs!"_.-:~$") :
      Written 7 false (some (.quoted ('"' :: (q ++ ['"'])))) ('"' :: (q ++ ['"']))
  /-- `-d`, ... and a blank -/
  | fileType {c b : Char} (hc : c ∈ cs!"-bcdlps") (hb : b = ' ' ∨ b = '\t') :
      Written 8 false (some .fileType) ['-', c, b]
  | punct {w : Str} {p : Punct} (h : (w, p) ∈ punctTable) : Written 9 false (some (.p p)) w
  /-- a comment that lists checks to disable -/
  | command {space ids : Str} {list : List Str} (hs : space = [] ∨ space = [' ']) (h : Listing list ids)
      (hl : ∀ i ∈ list, IsId i) : Written 10 true (some (.command (cs!"#selint-disable:" ++ (space ++ ids))))
        (cs!"#selint-disable:" ++ (space ++ ids))
  | comment {line : Str} (h : '\n' ∉ line) : Written 11 true (some .comment) ('#' :: line)
  /-- an m4 comment -/
  | dnl {line : Str} (h : '\n' ∉ line) : Written 12 true none (cs!"dnl" ++ line)
  | blank {c : Char} (h : c ∈ cs!" \t\n\r") : Written 13 false none [c]
  /-- anything else -/
  | other {c : Char} (h : c ≠ '\n') : Written 14 false (some (.unknown c)) [c]

/-- `LineEnds eol rest`: a text that has to end its line stands in front of a newline. -/
def LineEnds (eol : Bool) (rest : Str) : Prop := eol = true → rest.head? = some '\n'

/-- How far a match goes; the newline at the end of a line counts. -/
def extent (eol : Bool) (text : Str) : Nat := text.length + if eol then 1 else 0

/-- In front of `text ++ rest`, the token is read from `text`: it is written so, nothing that
goes further can be read there, and nothing of a preferred kind that goes as far. -/
def Read (t : Option Token) (text rest : Str) : Prop :=
  ∃ kind eol, Written kind eol t text ∧ LineEnds eol rest ∧
    ∀ ⦃kind' eol' t' text' rest'⦄, Written kind' eol' t' text' → LineEnds eol' rest' →
      text' ++ rest' = text ++ rest →
        extent eol' text' ≤ extent eol text ∧ (extent eol' text' = extent eol text → kind ≤ kind')

/-- The tokens of a text that begins on a line, with their lines. -/
inductive Tokens : (line : Nat) → Str → List (Nat × Token) → Prop
  | nil {n : Nat} : Tokens n [] []
  | skip {n : Nat} {text rest : Str} {ts : List (Nat × Token)} (h : Read none text rest)
      (hr : Tokens (n + text.count '\n') rest ts) : Tokens n (text ++ rest) ts
  | token {n : Nat} {text rest : Str} {t : Token} {ts : List (Nat × Token)} (h : Read (some t) text rest)
      (hr : Tokens n rest ts) : Tokens n (text ++ rest) ((n, t) :: ts)

end Selint.Spec
