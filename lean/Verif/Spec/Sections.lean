import Verif.Spec.OrderingRules
/-!
# What C-001 demands of two lines

`InSection m l s`: the line at `l` belongs to the section `s` of its file. A section groups
the lines about one type; declarations have a section of their own, and some lines
may stand anywhere.

`WrongBefore … r a b`: the line `a` must not stand before the line `b`, for the reason `r`.
-/

namespace Selint.Spec

/-- The sections of a te file. -/
inductive Section where
  /-- lines that may stand anywhere -/
  | anywhere
  | declarations
  /-- the lines about a type -/
  | of (name : Str)
  deriving DecidableEq, Repr

/-- Whether a node is a declaration, an alias or an attribute statement. -/
def IsDeclaration : NodeData → Prop
  | .decl _ | .attr _ | .plain .alias _ | .plain .typeAlias _ => True
  | _ => False

/-- Statements that may stand anywhere whatever they say. -/
def IsFree : NodeData → Prop
  | .header _ | .rt _ | .roleAllow _ | .roleTypes _ | .genReq _ => True
  | .plain f _ => f ∈ [.m4Call, .m4SimpleMacro, .define, .m4Arg, .require, .permissive, .comment, .empty,
      .semicolon, .error]
  | _ => False

/-- The node is the rule `d`, with or without extended permissions. -/
def IsRule (d : AvData) (data : NodeData) : Prop := data = .av d ∨ ∃ op, data = .xav d op

/-- Rules that may stand anywhere. -/
def FreeRule (d : AvData) : Prop :=
  d.flavor = .neverallow ∨ d.flavor = .auditallow ∨ cs!"associate" ∈ d.perms ∨ cs!"mounton" ∈ d.perms

/-- A call outside of all conditional blocks that declares something: of a template, or of an
interface known to transform types or to be for roles. -/
def Declares (m : Maps) (d : IfCallData) (l : Loc) : Prop :=
  outermost l = none ∧ (m.lookUpTemplate d.name ≠ none ∨ m.isTransform d.name ∨ m.isRole d.name)

/-- The node stands in a require block. -/
def Required (l : Loc) : Prop := ∃ f ∈ l.ups, f.info.flavor = .genReq ∨ f.info.flavor = .require

/-- The section of a line. -/
inductive InSection (m : Maps) : Loc → Section → Prop
  | free {l} : IsFree l.data → InSection m l .anywhere
  /-- declarations, unless they are only required -/
  | required {l} : IsDeclaration l.data → Required l → InSection m l .anywhere
  | declaration {l} : IsDeclaration l.data → ¬Required l → InSection m l .declarations
  | freeRule {l d} : IsRule d l.data → FreeRule d → InSection m l .anywhere
  /-- a rule: the section of its first source -/
  | rule {l d s ss} : IsRule d l.data → ¬FreeRule d → d.sources = s :: ss → InSection m l (.of s)
  /-- a type transition: the section of its first *target* (the code takes the rule for one
  of another kind) -/
  | transition {l d s ss} : l.data = .tt d → d.targets = s :: ss → InSection m l (.of s)
  | filetrans {l d} : l.data = .ifCall d → m.isFiletrans d.name → InSection m l .anywhere
  | declaring {l d} : l.data = .ifCall d → ¬m.isFiletrans d.name → Declares m d l →
      InSection m l .declarations
  /-- any other call: the section of its first argument -/
  | call {l d s ss} : l.data = .ifCall d → ¬m.isFiletrans d.name → ¬Declares m d l →
      d.argStrs = s :: ss → InSection m l (.of s)
  | callNoArgs {l d} : l.data = .ifCall d → ¬m.isFiletrans d.name → ¬Declares m d l →
      d.argStrs = [] → InSection m l .anywhere
  /-- a conditional block: the section of its beginning -/
  | block {l c s} : isConditional l.flavor → l.firstChild? = some c → InSection m c s → InSection m l s
  /-- the beginning of a block: the section of the first line in it -/
  | start {l n s} : l.flavor = .startBlock → l.next? = some n → InSection m n s → InSection m l s
  | emptyBlock {l} : l.flavor = .startBlock → l.next? = none → InSection m l .anywhere

/-- The name of a type or role without a final `_t` or `_r`. -/
def stem (s : Str) : Str :=
  if 2 < s.length ∧ (cs!"_t" <:+ s ∨ cs!"_r" <:+ s) then s.take (s.length - 2) else s

/-- The names belong to the same section. -/
def SameName (s t : Str) : Prop := stem s <+: t ∧ stem t <+: s

/-- The name by which the code calls a section. -/
def Section.title : Section → Str
  | .anywhere => cs!"_non_ordered"
  | .declarations => cs!"_declaration"
  | .of s => s

/-- The types and attributes named in a node that some module declares are all declared by `mod`. -/
def OwnNames (m : Maps) (mod : Str) (l : Loc) : Prop :=
  ∀ n ∈ getNamesInNode l.info, ∀ owner,
    (m.lookUpDecl n .type).or (m.lookUpDecl n .attribute) = some owner → owner = mod

/-- The place of a line within its section. -/
inductive InSubsection (m : Maps) (mod : Str) (v : OrderConf) (l : Loc) : Lss → Prop
  | optional : outermost l = some .optional → InSubsection m mod v l .optional
  | boolean : outermost l = some .boolean → InSubsection m mod v l .boolean
  | tunable : outermost l = some .tunable → InSubsection m mod v l .tunable
  | buildOption : outermost l = some .buildOption → InSubsection m mod v l .buildOption
  | self {d} : outermost l = none → IsRule d l.data → d.targets.head? = some cs!"self" →
      InSubsection m mod v l .self
  | own {d} : outermost l = none → IsRule d l.data → d.targets.head? ≠ some cs!"self" →
      OwnNames m mod l → InSubsection m mod v l .own
  | call {d callee} : outermost l = none → l.data = .ifCall d → m.lookUpIf d.name = some callee →
      InSubsection m mod v l (callPlace v mod callee (m.lookUpModLayer callee))
  | unknownOwn {d} : outermost l = none → l.data = .ifCall d → m.lookUpIf d.name = none →
      OwnNames m mod l → InSubsection m mod v l .own
  | unknownOther {d} : outermost l = none → l.data = .ifCall d → m.lookUpIf d.name = none →
      ¬OwnNames m mod l → InSubsection m mod v l .other

/-- Why a line must not stand before another. -/
inductive Reason where
  | section | declarationKind | subsection | alphabetical
  deriving DecidableEq, Repr

/-- The line is the first of its block. -/
def FirstInBlock (l : Loc) : Prop := ∃ p, l.prev? = some p ∧ p.flavor = .startBlock

/-- Two lines of the subsection `k` are ordered by the modules `x` and `y` of the interfaces they
call. -/
def ByModule (m : Maps) (v : OrderConf) (k : Lss) (a b : Loc) (x y : Str) : Prop :=
  v ≠ .lax ∧ k ∉ [.buildOption, .boolean, .tunable] ∧
  (k = .optional → FirstInBlock a ∧ FirstInBlock b) ∧
  ∃ d e, a.data = .ifCall d ∧ b.data = .ifCall e ∧ m.lookUpIf d.name = some x ∧ m.lookUpIf e.name = some y

/-- The average of some line numbers, in single precision as the code computes it (the sum is
unsigned); -1 if there is none. -/
def average (lines : List Nat) : Rat :=
  if lines = [] then -1 else SectionData.avg ⟨[], lines.length, lines.sum % 2 ^ 32⟩

open Classical in
/-- The lines of a section: those of its statements and blocks, and of the beginnings of the
blocks, that are not excepted from C-001. -/
noncomputable def sectionLines (m : Maps) (head : Loc) (s : Section) : List Nat :=
  ((orderingNodes head).filter fun l => InSection m l s).map (·.info.lineno)

/-- The number by which the code calls a reason. -/
def Reason.code : Reason → Int
  | .section => 1 | .declarationKind => 2 | .subsection => 3 | .alphabetical => 4

/-- `a` must not stand before `b`. `avg` gives the average line of the section of a type. -/
inductive WrongBefore (m : Maps) (mod : Str) (v : OrderConf) (avg : Str → Rat) :
    Reason → Loc → Loc → Prop
  /-- declarations come first -/
  | declarations {a b s} : InSection m a (.of s) → InSection m b .declarations →
      WrongBefore m mod v avg .section a b
  /-- sections follow each other by average line or by the alphabet -/
  | section {a b s t} : InSection m a (.of s) → InSection m b (.of t) → ¬SameName s t →
      avg t < avg s → t < s → WrongBefore m mod v avg .section a b
  /-- booleans come before attributes, attributes before other declarations -/
  | bool {a b d e} : InSection m a .declarations → InSection m b .declarations →
      a.data = .decl d → b.data = .decl e → d.flavor ≠ .bool → e.flavor = .bool →
      WrongBefore m mod v avg .declarationKind a b
  | attribute {a b d e} : InSection m a .declarations → InSection m b .declarations →
      a.data = .decl d → b.data = .decl e → d.flavor ≠ .bool → d.flavor ≠ .attribute →
      e.flavor = .attribute → WrongBefore m mod v avg .declarationKind a b
  | subsection {a b s t x y} : InSection m a (.of s) → InSection m b (.of t) → SameName s t →
      InSubsection m mod v a x → InSubsection m mod v b y → place v y < place v x →
      WrongBefore m mod v avg .subsection a b
  | alphabetical {a b s t k x y} : InSection m a (.of s) → InSection m b (.of t) → SameName s t →
      InSubsection m mod v a k → InSubsection m mod v b k → ByModule m v k a b x y → y < x →
      WrongBefore m mod v avg .alphabetical a b
  /-- two optional blocks, or blocks in them, are compared by their first lines -/
  | blocks {a b s t a₁ b₁ a₂ b₂ r} : InSection m a (.of s) → InSection m b (.of t) → SameName s t →
      v ≠ .lax → InSubsection m mod v a .optional → InSubsection m mod v b .optional →
      (∀ x y, ByModule m v .optional a b x y → x = y) →
      a.firstChild? = some a₁ → a₁.next? = some a₂ → b.firstChild? = some b₁ → b₁.next? = some b₂ →
      WrongBefore m mod v avg r a₂ b₂ → WrongBefore m mod v avg r a b

/-! ## The message -/

/-- How a message describes the line it is about. -/
def kindText : Lss → Str
  | .self => cs!"self rule" | .own => cs!"own module rule" | .related => cs!"related module interface"
  | .kernelMod => cs!"kernel module interface" | .kernel => cs!"kernel layer interface"
  | .system => cs!"system layer interface" | .other => cs!"general interface"
  | .buildOption => cs!"build option" | .boolean => cs!"boolean policy block"
  | .tunable => cs!"tunable policy block" | .optional => cs!"optional policy block"
  | .unknown => cs!"unknown subsection"

/-- How a message describes the other line. -/
def otherText (v : OrderConf) : Lss → Str
  | .self => cs!"that is a self rule"
  | .own => cs!"that refers to types owned by this module"
  | .related => cs!"that calls an interface located in a related module"
  | .kernelMod => cs!"that calls an interface located in the kernel module"
  | .kernel => cs!"that calls an interface located in the kernel layer"
  | .system => cs!"that calls an interface located in the system layer"
  | .other => match v with
    | .ref => cs!"that calls an interface not located in the kernel or system layer"
    | _ => cs!"that calls a non-optional interface"
  | .buildOption => cs!"that is controlled by a build option"
  | .boolean => cs!"that is in a boolean block"
  | .tunable => cs!"that is in a tunable block"
  | .optional => cs!"that is in an optional block"
  | .unknown => []

/-- What a message adds on the layer of the line, if the other one is placed by its layer. -/
def layerNote : (other this : Lss) → Str
  | .kernel, k | .system, k | .other, k => match k with
    | .kernel => cs!"  (This interface is in the kernel layer.)"
    | .system => cs!"  (This interface is in the system layer.)"
    | .other => cs!"  (This interface is in a layer other than kernel or system.)"
    | .kernelMod => cs!"  (This interface is in the kernel module.)"
    | _ => []
  | _, _ => []

/-- What a message adds on the sections of the two lines. -/
def sectionNote (this other : Section) : Str :=
  cs!"  (This node is in the section for " ++ this.title ++ cs!" rules and the other is in the section for " ++
    other.title ++ cs!" rules.)"

/-- The text for a reason, and what is added to it. -/
inductive Because (m : Maps) (mod : Str) (v : OrderConf) (this other : Loc) (otherIsLater : Prop) :
    Reason → Str → Str → Prop
  | notDeclaration {t} : InSection m this .declarations → InSection m other t →
      Because m mod v this other otherIsLater .section cs!"that is not a declaration" (sectionNote .declarations t)
  | transform {s d} : InSection m this s → s ≠ .declarations → InSection m other .declarations →
      other.data = .ifCall d → m.isTransform d.name →
      Because m mod v this other otherIsLater .section cs!"that is a transform interface" (sectionNote s .declarations)
  | declaration {s} : InSection m this s → s ≠ .declarations → InSection m other .declarations →
      (∀ d, other.data = .ifCall d → ¬m.isTransform d.name) →
      Because m mod v this other otherIsLater .section cs!"that is a declaration" (sectionNote s .declarations)
  | different {s t} : InSection m this s → s ≠ .declarations → InSection m other t → t ≠ .declarations →
      Because m mod v this other otherIsLater .section cs!"that is in a different section" (sectionNote s t)
  | kind : Because m mod v this other otherIsLater .declarationKind
      cs!"that is associated with a different sort of declaration" []
  | subsection {j k} : InSubsection m mod v this j → InSubsection m mod v other k →
      Because m mod v this other otherIsLater .subsection (otherText v k) (layerNote k j)
  | earlier : otherIsLater →
      Because m mod v this other otherIsLater .alphabetical cs!"that is alphabetically earlier" []
  | later : ¬otherIsLater →
      Because m mod v this other otherIsLater .alphabetical cs!"that is alphabetically later" []

/-- The subsection of a line, if it has one. -/
def SubsectionOrNone (m : Maps) (mod : Str) (v : OrderConf) (l : Loc) (k : Lss) : Prop :=
  InSubsection m mod v l k ∨ (k = .unknown ∧ ∀ j, ¬InSubsection m mod v l j)

/-- The message of C-001. -/
def orderMessage (kind : Lss) (side : Str) (line : Nat) (text note : Str) : Str :=
  cs!"Line out of order.  It is of type " ++ kindText kind ++ cs!" " ++ side ++ cs!" line " ++ natToStr line ++
    cs!" " ++ text ++ cs!"." ++ note

end Selint.Spec
