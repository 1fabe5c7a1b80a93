import Verif.Model.Token
import Verif.Model.Tree
/-!
# Specification: the words of a list

What a list of names, the arguments of a call, or a range says, read from the tokens alone.
-/

namespace Selint.Spec

/-- The elements of a list of names: a dash belongs to the word after it, `~` and `*` are elements,
braces are not. -/
def listWords : List Token → List Str
  | [] => []
  | .p .dash :: .string s :: r => ('-' :: s) :: listWords r
  | .string s :: r => s :: listWords r
  | .quoted s :: r => s :: listWords r
  | .p .tilda :: r => cs!"~" :: listWords r
  | .p .star :: r => cs!"*" :: listWords r
  | _ :: r => listWords r

/-- The elements of a list of extended permissions: here a dash is an element of its own. -/
def xpermWords : List Token → List Str
  | [] => []
  | .string s :: r => s :: xpermWords r
  | .numString s :: r => s :: xpermWords r
  | .number s :: r => s :: xpermWords r
  | .p .dash :: r => cs!"-" :: xpermWords r
  | .p .tilda :: r => cs!"~" :: xpermWords r
  | _ :: r => xpermWords r

/-- How an MLS token is written. -/
def mlsText : Token → Str
  | .string s => s
  | .p .dash => cs!"-"
  | .p .colon => cs!":"
  | .p .period => cs!"."
  | _ => []

/-- Where in the arguments of a call a token stands: at the beginning of an argument, later in one,
in braces, or in quotes. -/
inductive ArgPlace where
  | start
  | later
  | braces
  | quotes

/-- The elements of the arguments of a call, each with a mark if it is a word that follows another
one without a comma between them. Words in braces or quotes are not marked. A dash is an element of
its own where an argument begins and in braces, and belongs to the next word elsewhere. -/
def argWords : ArgPlace → List Token → List (Str × Bool)
  | _, [] => []
  | _, .p .comma :: r => argWords .start r
  | _, .p .openCurly :: r => argWords .braces r
  | _, .p .closeCurly :: r => argWords .later r
  | _, .p .backtick :: .p .singleQuote :: r => ([], false) :: argWords .later r
  | _, .p .backtick :: r => argWords .quotes r
  | _, .p .singleQuote :: r => argWords .later r
  | .later, .p .dash :: .string s :: r => ('-' :: s, true) :: argWords .later r
  | .quotes, .p .dash :: .string s :: r => ('-' :: s, false) :: argWords .quotes r
  | .braces, .p .dash :: r => (cs!"-", false) :: argWords .braces r
  | .start, .p .dash :: r => (cs!"-", false) :: argWords .later r
  | p, .p .tilda :: r => (cs!"~", false) :: argWords p r
  | .later, .string s :: r => (s, true) :: argWords .later r
  | .later, .quoted s :: r => (s, true) :: argWords .later r
  | .start, .string s :: r => (s, false) :: argWords .later r
  | .start, .numString s :: r => (s, false) :: argWords .later r
  | .start, .number s :: r => (s, false) :: argWords .later r
  | .start, .quoted s :: r => (s, false) :: argWords .later r
  | p, .string s :: r => (s, false) :: argWords p r
  | p, .numString s :: r => (s, false) :: argWords p r
  | p, .number s :: r => (s, false) :: argWords p r
  | p, .quoted s :: r => (s, false) :: argWords p r
  | p, _ :: r => argWords p r

/-! ## Rules in a text -/

/-- The words that begin a rule. -/
def ruleKeywords : List Keyword :=
  [.allow, .auditAllow, .dontAudit, .neverAllow, .allowXperm, .auditAllowXperm, .dontAuditXperm, .neverAllowXperm,
    .typeTransition, .typeMember, .typeChange, .rangeTransition, .roleTransition, .typeAttribute, .roleAttribute,
    .typealias, .permissive]

/-- Does the token begin a rule? -/
def beginsRule : Token → Bool
  | .kw k => ruleKeywords.contains k
  | _ => false

/-- The rules in a text: from each such word to the next semicolon, with the line of the word. -/
def rulesIn : List (Nat × Token) → List (Nat × List Token)
  | [] => []
  | (n, t) :: r =>
    if beginsRule t then (n, t :: (r.map Prod.snd).takeWhile (· ≠ .p .semicolon)) :: rulesIn r else rulesIn r

/-- Read one list of names: in braces, a single word, or either of them behind `~`. The elements and
what follows. -/
def readList : List Token → List Str × List Token
  | [] => ([], [])
  | .p .tilda :: r => (cs!"~" :: (readList r).1, (readList r).2)
  | .p .openCurly :: r => (listWords (r.takeWhile (· ≠ .p .closeCurly)), (r.dropWhile (· ≠ .p .closeCurly)).tail)
  | .p .dash :: .string s :: r => (['-' :: s], r)
  | t :: r => (listWords [t], r)

/-- Read sources and targets. -/
def readTwo (r : List Token) : List Str × List Str × List Token :=
  ((readList r).1, (readList (readList r).2).1, (readList (readList r).2).2)

/-- Read sources, targets, a colon and classes; whether there was a colon is told by the third. -/
def readThree (r : List Token) : List Str × List Str × Option (List Str) × List Token :=
  match readTwo r with
  | (s, t, .p .colon :: r) => (s, t, some (readList r).1, (readList r).2)
  | (s, t, r) => (s, t, none, r)

/-- An access vector rule; an `allow` without a colon is about roles. -/
def readAv (fl : AvFlavor) (r : List Token) : Option NodeData :=
  match readThree r with
  | (s, t, some c, r) => some (.av ⟨fl, s, t, c, (readList r).1⟩)
  | (s, t, none, []) => some (.roleAllow ⟨s, t⟩)
  | _ => none

/-- A rule on extended permissions. -/
def readXav (fl : AvFlavor) (r : List Token) : Option NodeData :=
  match readThree r with
  | (s, t, some c, .string op :: r) => some (.xav ⟨fl, s, t, c, xpermWords r⟩ op)
  | _ => none

/-- A type rule: with a name in quotes at the end, or without. -/
def readTt (fl : TtFlavor) (r : List Token) : Option NodeData :=
  match readThree r with
  | (s, t, some c, [.string d]) => some (.tt ⟨s, t, c, d, none, fl⟩)
  | (s, t, some c, [.string d, .quoted n]) => some (.tt ⟨s, t, c, d, some n, fl⟩)
  | _ => none

/-- A range transition. -/
def readRange (r : List Token) : Option NodeData :=
  match readThree r with
  | (s, t, some c, r) => some (.tt ⟨s, t, c, r.flatMap mlsText, none, .rt⟩)
  | _ => none

/-- A role transition: without classes, or with them. -/
def readRt (r : List Token) : Option NodeData :=
  match readThree r with
  | (s, t, c, [.string d]) => some (.rt ⟨s, t, c.getD [], d⟩)
  | _ => none

/-- What a rule says. -/
def readRule : List Token → Option NodeData
  | .kw .allow :: r => readAv .allow r
  | .kw .auditAllow :: r => readAv .auditallow r
  | .kw .dontAudit :: r => readAv .dontaudit r
  | .kw .neverAllow :: r => readAv .neverallow r
  | .kw .allowXperm :: r => readXav .allow r
  | .kw .auditAllowXperm :: r => readXav .auditallow r
  | .kw .dontAuditXperm :: r => readXav .dontaudit r
  | .kw .neverAllowXperm :: r => readXav .neverallow r
  | .kw .typeTransition :: r => readTt .tt r
  | .kw .typeMember :: r => readTt .tm r
  | .kw .typeChange :: r => readTt .tc r
  | .kw .rangeTransition :: r => readRange r
  | .kw .roleTransition :: r => readRt r
  | .kw .typeAttribute :: .string n :: r => some (.attr ⟨n, listWords r, .type⟩)
  | .kw .roleAttribute :: .string n :: r => some (.attr ⟨n, listWords r, .role⟩)
  | .kw .typealias :: .string n :: _ => some (.plain .typeAlias (some n))
  | [.kw .permissive, .string n] => some (.plain .permissive (some n))
  | _ => none

/-- The flavors of the nodes of rules. -/
def ruleFlavors : List NodeFlavor :=
  [.avRule, .xavRule, .roleAllow, .ttRule, .rtRule, .typeAttribute, .roleAttribute, .typeAlias, .permissive]

/-- Is it the node of a rule? -/
def isRule (i : NodeInfo) : Bool := ruleFlavors.contains i.flavor

end Selint.Spec
