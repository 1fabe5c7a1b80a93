import Verif.Model.Tree
/-!
# File context lines, as text

The first part says on plain strings — without a buffer — which entry a line gives, including
the places where the parser deviates from the documented format. The second part
(`EntryText`) describes the documented format: how an entry is written down.
-/

namespace Selint.Spec

/-- Split off the first token of `s`: leading separators are skipped, the token extends to the
next separator. The second component is what follows that separator. -/
def token (sep : Char → Bool) (s : Str) : Option (Str × Str) :=
  let s := s.dropWhile sep
  if s = [] then none
  else some (s.takeWhile (!sep ·), (s.dropWhile (!sep ·)).drop 1)

/-- Space and tab. -/
def blank (c : Char) : Bool := c = ' ' || c = '\t'

/-- `user:role:type` or `user:role:type:range`. -/
def contextText (s : Str) : Option SelContext :=
  if '(' ∈ s then none
  else match token (· = ':') s with
    | none => none
    | some (user, s) => match token (· = ':') s with
      | none => none
      | some (role, s) => match token (· = ':') s with
        | none => none
        | some (type, s) => match token (· = ':') s with
          | none => some ⟨false, user, role, type, none⟩
          | some (range, s) => match token (· = ':') s with
            | none => some ⟨false, user, role, type, some range⟩
            | some _ => none

/-- The text before the first closing parenthesis, if there is one. -/
def uptoParen (s : Str) : Option Str := if ')' ∈ s then some (s.takeWhile (· ≠ ')')) else none

/-- The text before the first closing parenthesis that is not among the first `i`
characters. -/
def uptoParenFrom (i : Nat) (s : Str) : Option Str :=
  (uptoParen (s.drop i)).map (s.take i ++ ·)

/-- A context from `gen_context`, with the given level and category. -/
def withRange (c : SelContext) (range : Option Str) : SelContext :=
  { c with hasGenContext := true, range := range }

/-- What follows `gen_context(`: a context, a level and a category, separated by commas. The
closing parenthesis is looked for in the last of them — in the category only from the
position on at which the level ended. -/
def genContextText (s : Str) : Option SelContext :=
  match token (· = ',') s with
  | none => none
  | some (ctx, s) => match token (· = ',') s with
    | none => match uptoParen ctx with
      | none => none
      | some ctx => (contextText ctx).map (withRange · none)
    | some (level, s) => match token (· = ',') s with
      | none => match uptoParen level with
        | none => none
        | some level =>
          (contextText ctx).map (withRange · (some (level.dropWhile blank)))
      | some (category, _) =>
        let level := level.takeWhile (· ≠ ')')
        match uptoParenFrom level.length category with
        | none => none
        | some category =>
          (contextText ctx).map
            (withRange · (some (level.dropWhile blank ++ ':' :: category.dropWhile blank)))

/-- The path, the object class, and the rest of the line from the context on. -/
def splitLine (line : Str) : Option (Str × Option Char × Str) :=
  match token blank line with
  | none => none
  | some (path, s) =>
    let s := s.dropWhile blank
    if s = [] then none
    else if s.head? = some '-' then
      match s.takeWhile (!blank ·) with
      | [_, cls] =>
        let s := (s.dropWhile (!blank ·)).dropWhile blank
        if s = [] then none else some (path, some cls, s)
      | _ => none
    else some (path, none, s)

/-- The entry of a line, `none` if the line has none. -/
def entryText (line : Str) : Option FcEntry :=
  match splitLine line with
  | none => none
  | some (path, cls, s) =>
    if cs!"gen_context(" <+: s then
      (genContextText (s.drop 12)).map fun c => ⟨path, cls, some c⟩
    else if s = cs!"<<none>>\n" ∨ s = cs!"<<none>>\r\n" then some ⟨path, cls, none⟩
    else (contextText s).map fun c => ⟨path, cls, some c⟩

/-- The category of the `gen_context` call that starts in `s` reaches at least as far as its
level. (Vacuous if there is no category.) -/
def CategoryReaches (s : Str) : Prop :=
  ∀ ctx s1 level s2 category s3,
    token (· = ',') s = some (ctx, s1) → token (· = ',') s1 = some (level, s2) →
    token (· = ',') s2 = some (category, s3) →
    (level.takeWhile (· ≠ ')')).length ≤ category.length

/-- The lines on which the parser stays within its line: the last word is not a single hyphen
at the very end, and a category is at least as long as the level before it. -/
structure Tame (line : Str) : Prop where
  no_nul : ∀ c ∈ line, c ≠ '\x00'
  no_hyphen : ∀ a b, blank b = true → line ≠ a ++ [b, '-']
  reaches : ∀ path cls s, splitLine line = some (path, cls, s) → cs!"gen_context(" <+: s →
    CategoryReaches (s.drop 12)

/-! ## Well-formed entries -/

/-- A name in a context. -/
structure IsName (s : Str) : Prop where
  nonempty : s ≠ []
  chars : ∀ c ∈ s, c ≠ '\x00' ∧ c ≠ ':' ∧ c ≠ ',' ∧ c ≠ '(' ∧ c ≠ ')' ∧ blank c = false
  no_hyphen : s.head? ≠ some '-'

/-- A level or a category: it may contain colons. -/
structure IsRange (s : Str) : Prop where
  nonempty : s ≠ []
  chars : ∀ c ∈ s, c ≠ '\x00' ∧ c ≠ ',' ∧ c ≠ ')' ∧ blank c = false

/-- A path. -/
structure IsPath (s : Str) : Prop where
  nonempty : s ≠ []
  chars : ∀ c ∈ s, c ≠ '\x00' ∧ blank c = false

/-- White space between words. -/
structure IsGap (s : Str) : Prop where
  nonempty : s ≠ []
  chars : ∀ c ∈ s, blank c = true

/-- The label of an entry, as text: nothing, a plain context, or a `gen_context` call with up
to three arguments. The strings called `w` are the white space after a comma. -/
inductive LabelText where
  | none
  | plain (user role type : Str) (range : Option Str)
  | gen (user role type : Str)
  | genLevel (user role type w level : Str)
  | genCategory (user role type w level w' category : Str)

/-- The label as it is written. -/
def LabelText.render : LabelText → Str
  | .none => cs!"<<none>>"
  | .plain u r t .none => u ++ ':' :: r ++ ':' :: t
  | .plain u r t (.some m) => u ++ ':' :: r ++ ':' :: t ++ ':' :: m
  | .gen u r t => cs!"gen_context(" ++ u ++ ':' :: r ++ ':' :: t ++ cs!")"
  | .genLevel u r t w s => cs!"gen_context(" ++ u ++ ':' :: r ++ ':' :: t ++ ',' :: w ++ s ++ cs!")"
  | .genCategory u r t w s w' c =>
    cs!"gen_context(" ++ u ++ ':' :: r ++ ':' :: t ++ ',' :: w ++ s ++ ',' :: w' ++ c ++ cs!")"

/-- The context a label stands for. -/
def LabelText.context : LabelText → Option SelContext
  | .none => .none
  | .plain u r t m => some ⟨false, u, r, t, m⟩
  | .gen u r t => some ⟨true, u, r, t, .none⟩
  | .genLevel u r t _ s => some ⟨true, u, r, t, some s⟩
  | .genCategory u r t _ s _ c => some ⟨true, u, r, t, some (s ++ ':' :: c)⟩

/-- The label is well-formed. -/
def LabelText.WF : LabelText → Prop
  | .none => True
  | .plain u r t m => IsName u ∧ IsName r ∧ IsName t ∧ ∀ s, m = some s → IsName s
  | .gen u r t => IsName u ∧ IsName r ∧ IsName t
  | .genLevel u r t w s => IsName u ∧ IsName r ∧ IsName t ∧ (∀ c ∈ w, blank c = true) ∧ IsRange s
  | .genCategory u r t w s w' c =>
    IsName u ∧ IsName r ∧ IsName t ∧ (∀ c ∈ w, blank c = true) ∧ IsRange s ∧
      (∀ c ∈ w', blank c = true) ∧ IsRange c

/-- An entry of a file context file, as text. -/
structure EntryText where
  lead : Str
  path : Str
  gap : Str
  /-- the object class and the white space after it -/
  cls : Option (Char × Str)
  label : LabelText

/-- The line without its newline. -/
def EntryText.render (e : EntryText) : Str :=
  e.lead ++ e.path ++ e.gap ++
    (match e.cls with
      | .none => []
      | some (c, gap) => '-' :: c :: gap) ++ e.label.render

/-- The entry that the line stands for. -/
def EntryText.entry (e : EntryText) : FcEntry := ⟨e.path, e.cls.map (·.1), e.label.context⟩

/-- The entry is well-formed. -/
structure EntryText.WF (e : EntryText) : Prop where
  lead : ∀ c ∈ e.lead, blank c = true
  path : IsPath e.path
  gap : IsGap e.gap
  cls : ∀ c g, e.cls = some (c, g) → c ≠ '\x00' ∧ blank c = false ∧ IsGap g
  label : e.label.WF

/-- How lines that belong to an m4 construct begin. -/
def m4Starts : List Str := [cs!"ifdef", cs!"ifndef", cs!"')", cs!"', `", cs!"',`"]

/-- The lines of a file context file that give no node: blank ones (at most a newline),
comments, m4 constructs and calls of a macro listed in the configuration. -/
def IgnoredFcLine (macros : List Str) (len : Nat) (line : Str) : Prop :=
  len ≤ 1 ∨ ['#'] <+: line ∨ (∃ m ∈ m4Starts, m <+: line) ∨ ∃ m ∈ macros, m ++ ['('] <+: line

/-- `line` occupies line `lineno` of a file with these lines, counting from 1. -/
def IsLine (lines : List α) (lineno : Nat) (line : α) : Prop :=
  1 ≤ lineno ∧ lines[lineno - 1]? = some line

open Classical in
/-- The numbers of the lines that are not ignored, in order, the first line having number
`n`. -/
noncomputable def keptLines (ignored : α → Prop) (n : Nat) (lines : List α) : List Nat :=
  ((List.range' n lines.length).zip lines).filterMap fun (k, l) => if ignored l then none else some k

end Selint.Spec
