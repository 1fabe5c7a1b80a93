import Verif.Spec.ParserStack
import Verif.Lemmas.LalrErrors
/-!
# How high the parser's stack is

The symbols on the stack stand for the tokens that were shifted. A way through the states that makes
the stack higher without end would have to go round in circles, and every circle opens a bracket or
adds a sign, a comment or a word; the tables here say how much, and are checked by the kernel.
-/

namespace Selint
namespace Lr
open Spec

/-- In which parts of a text a nonterminal may stand, as bits; by its number. -/
def ntParts : List Nat := [24, 2, 2, 3, 3, 2, 2, 3, 1, 2, 2, 2, 2, 2, 2, 2, 2, 2, 2, 1, 1, 2, 2,
    2, 2, 2, 4, 4, 4, 2, 2, 2, 2, 2, 2, 1, 2, 1, 3, 2, 2, 2, 2, 2, 2, 3, 2, 2, 2, 2, 2, 2, 56, 2,
    4, 2, 2, 2, 2, 2, 2, 2, 2, 2, 2, 2, 2, 2, 2, 2, 2, 2, 2, 2, 2, 2, 2, 2, 2, 10, 2, 2, 2, 2, 2,
    2, 2, 2, 2, 0, 2, 10, 1, 2, 2, 3, 10, 10, 3, 1, 2, 2, 2, 2, 2, 2, 2, 2, 2, 2, 2, 2, 2]

/-- The nonterminals that stand for neither a comma nor a semicolon nor a quote. -/
def signNts : List Nt := [.avClassDefinition, .avCommonDefinition, .avContent, .avContents,
    .avDefinition, .avFile, .avPermission, .avPermissionList, .avPermissions, .avType,
    .booleanOpen, .comment, .comments, .condition, .endInterface, .genRequireBegin,
    .headerVersion, .ifKeyword, .ifOrIfn, .m4SimpleMacro, .midDefine, .midFirstArg, .midIfdef,
    .midIfelse, .midNextArg, .midOptionalElse, .midOptionalEnd, .midReqIfdef, .midReqIfdefQuoted,
    .midRequire, .midRequireCommand, .midTunable, .midTunableQuoted, .mlsComponent, .mlsLevel,
    .mlsRange, .portRange, .rawContext, .slItem, .stringList, .strings, .twoIpAddrs, .xpermAvType,
    .xpermItem, .xpermItems, .xpermList]

/-- For every state how it is reached (`Waiting.ofCode`), and a number by which the height of the
    stack may then
exceed what the tokens account for; in pieces of 25. -/
def heightTable : List (List (List (Nat × Int))) := [
    [[(0, 0)], [], [(8, 1)], [(0, 1)], [(8, 1)], [(8, 1)], [(8, 1)], [(8, 2)], [(4, 0)], [(8, 2)],
    [(8, 2)], [(8, 2)], [(8, 2)], [(8, 2)], [(4, 0)], [(8, -18)], [(16, 4)], [(8, 4)], [(8, 4)],
    [(8, 4)], [(8, 4)], [(8, 4)], [(8, 4)], [(8, 4)], [(8, 2)]],
    [[(8, 2)], [(8, 2)], [(8, 2)], [(8, 3)], [(8, 3)], [(8, 3)], [(8, 4)], [(8, 4)], [(8, 4)],
    [(8, 4)], [(8, 4)], [(8, 4)], [(8, 4)], [(8, 4)], [(8, 4)], [(8, 4)], [(8, 4)], [(8, 4)], [(8,
    4)], [(8, 4)], [(8, 4)], [(8, 4)], [(8, 4)], [(8, 4)], [(8, 4)]],
    [[(8, 4)], [(8, 4)], [(8, 4)], [(8, 4)], [(8, 4)], [(8, 4)], [(8, 4)], [(8, 4)], [(8, 4)],
    [(8, 4)], [(8, 4)], [(8, 4)], [(8, 4)], [(8, 4)], [(8, 4)], [(8, 4)], [(8, 4)], [(8, 4)], [(8,
    4)], [(8, 4)], [(8, 4)], [(8, 4)], [(8, 4)], [(8, 4)], [(8, 4)]],
    [[(8, 4)], [(8, 4)], [(8, 4)], [(8, -18)], [(8, -7)], [(8, 4)], [(8, 4)], [(8, 4)], [(8, 4)],
    [(8, 4)], [(8, 4)], [(8, 4)], [(8, 4)], [(8, 4)], [(8, 4)], [(8, 4)], [(8, 4)], [(8, 4)], [(8,
    4)], [(8, 4)], [(16, 4)], [(8, 4)], [(8, 4)], [(8, 4)], [(8, 4)]],
    [[(8, 4)], [(8, 4)], [(8, 4)], [(8, 4)], [(8, 4)], [(8, 4)], [(8, 4)], [(8, 4)], [(8, 4)],
    [(8, 4)], [(8, 4)], [(8, 4)], [(8, 4)], [(8, 4)], [(8, 4)], [(16, 4), (24, -10)], [(8, 4)],
    [(8, 4)], [(8, -7)], [(8, 4)], [(8, 4)], [(8, 4)], [(4, 1)], [(8, 3)], [(8, 3)]],
    [[(8, 4)], [(8, 4)], [(8, 3)], [(8, 3)], [(8, 4)], [(8, 4)], [(8, 3)], [(8, 3)], [(8, 4)],
    [(8, 4)], [(8, -8)], [(8, 3)], [(8, -17)], [(8, -17)], [(8, 5)], [(8, -4)], [(16, -6)], [(8,
    -6)], [(8, 5)], [(8, 5)], [(8, 4)], [(8, 5)], [(8, 5)], [(8, 5)], [(8, 5)]],
    [[(8, 5)], [(8, 5)], [(8, 5)], [(8, 5)], [(8, 5)], [(8, -2), (10, -12), (24, -11), (26, -21)],
    [(10, -2), (26, -22)], [(8, 9), (10, -1), (24, -11), (26, -21)], [(8, 9), (10, -1), (24, -11),
    (26, -21)], [(8, 9), (10, -1), (24, -9), (26, -19)], [(8, 9), (10, -1), (24, -9), (26, -19)],
    [(8, 9), (10, -1), (24, -9), (26, -19)], [(8, 5)], [(8, 5)], [(8, 5)], [(8, 5)], [(8, 5)],
    [(8, 5)], [(8, -6)], [(8, -17)], [(8, -6)], [(8, -17)], [(8, -6)], [(8, -3)], [(8, -2)]],
    [[(8, -2)], [(8, -2)], [(8, -2)], [(8, -2)], [(8, -2)], [(8, -2)], [(8, -2)], [(8, -2)], [(8,
    -6)], [(8, 5)], [(8, 5)], [(8, 5)], [(8, 5)], [(8, 5)], [(8, 5)], [(8, 5)], [(8, 5)], [(8,
    5)], [(8, 5)], [(8, 5)], [(16, -6)], [(8, -6)], [(8, 5)], [(8, 5)], [(8, 5)]],
    [[(8, 5)], [(8, -6)], [(8, -6)], [(8, -6)], [(8, -6)], [(8, -6)], [(8, -6)], [(16, -6), (24,
    -9)], [(8, -6)], [(8, -6)], [(8, -6)], [(8, 6), (10, 0)], [(10, -5)], [(8, -5), (10, -11)],
    [(8, -6)], [(8, 4)], [(8, 4)], [(8, 4)], [(8, -7)], [(8, 4)], [(8, 4)], [(8, 4)], [(8, 6)],
    [(8, -16)], [(8, 6)]],
    [[(8, 8)], [(24, -16)], [(8, -16)], [(8, 6)], [(8, 6)], [(8, -3)], [(8, 6)], [(8, 6)], [(8,
    6)], [(8, 6)], [(8, 6)], [(8, 6)], [(8, 6)], [(8, 9)], [(8, 6)], [(8, 6)], [(8, 6)], [(8, -1),
    (10, -11), (24, -10), (26, -20)], [(8, -1), (10, -11), (24, -10), (26, -20)], [(10, -1), (26,
    -21)], [(8, 10), (10, 0), (24, -8), (26, -18)], [(8, 6)], [(8, 6)], [(8, 6)], [(8, 6)]],
    [[(8, 6)], [(8, 6)], [(8, -5)], [(8, 6)], [(8, -5)], [(8, -3)], [(8, -3)], [(8, -14)], [(8,
    -1), (10, -11)], [(10, -1)], [(8, 10), (10, 0)], [(8, 10), (10, 0)], [(8, 10), (10, 0)], [(8,
    10), (10, 0)], [(8, 10), (10, 0)], [(8, -5)], [(8, 6)], [(8, -16)], [(8, -16)], [(8, 6)], [(8,
    -2)], [(8, -1)], [(8, -1)], [(8, -1)], [(8, -1)]],
    [[(8, -1)], [(8, -1)], [(8, -1)], [(8, -12)], [(8, -5)], [(8, -5)], [(8, 6)], [(8, 6)], [(8,
    6)], [(8, 8)], [(8, 8)], [(8, 8)], [(8, 6)], [(8, 6)], [(8, 6)], [(8, 6)], [(8, 6)], [(8, 6)],
    [(8, 6)], [(8, 6)], [(8, 6)], [(8, 6)], [(16, -5)], [(8, -5)], [(8, -4)]],
    [[(8, -4)], [(8, 6)], [(8, 6)], [(8, 6)], [(8, 6)], [(8, 6)], [(8, 6)], [(8, -5)], [(8, -16)],
    [(8, -5)], [(8, -16)], [(8, -5)], [(8, -16)], [(8, -5)], [(24, -16), (32, -19)], [(8, -16)],
    [(8, -16)], [(8, -5)], [(8, -3), (10, -9)], [(8, -1), (10, -7)], [(8, 1), (10, -5)], [(8, 3),
    (10, -3)], [(8, 5), (10, -1)], [(8, 6)], [(10, -4)]],
    [[(8, -4), (10, -10)], [(8, -5)], [(8, -6)], [(8, 5)], [(8, 7)], [(24, -15)], [(8, -15)], [(8,
    7)], [(8, -2)], [(8, -2)], [(8, -1)], [(8, -1)], [(8, 7)], [(8, 7)], [(8, 7)], [(8, 10)], [(8,
    7)], [(8, 7)], [(8, 7)], [(8, 7)], [(8, 11), (10, 1), (24, -9), (26, -19)], [(8, 0), (10,
    -10), (24, -9), (26, -19)], [(8, 7)], [(8, 7)], [(8, 7)]],
    [[(8, 7)], [(8, 7)], [(8, 7)], [(8, 7)], [(8, 7)], [(8, -4)], [(8, -4)], [(8, -13)], [(8,
    -2)], [(8, 0), (10, -10)], [(8, 0), (10, -10)], [(10, 0)], [(8, 7)], [(8, -4)], [(8, -4)],
    [(8, -15)], [(8, 0)], [(8, 0)], [(8, 0)], [(8, 0)], [(8, 0)], [(8, 0)], [(8, -22)], [(8, -4)],
    [(8, -4)]],
    [[(8, 7)], [(8, 7)], [(8, 7)], [(8, 7)], [(8, -2)], [(8, 9)], [(8, 7)], [(8, 7)], [(8, 7)],
    [(8, 7)], [(8, 7)], [(8, 7)], [(16, -4)], [(24, -15)], [(16, -4)], [(8, -4)], [(8, -3)], [(8,
    7)], [(8, 7)], [(8, 7)], [(8, -4)], [(8, -15)], [(8, -4)], [(8, -15)], [(8, -15)]],
    [[(8, -4)], [(8, 0)], [(24, -15), (32, -18)], [(25, -13), (33, -19)], [(32, -23), (33, -23),
    (40, -29), (41, -29)], [(24, -12), (25, -13), (32, -18), (33, -19), (40, -28), (41, -29)],
    [(24, -12), (25, -13), (32, -18), (33, -19), (40, -28), (41, -29)], [(24, -12), (25, -13),
    (32, -18), (33, -19), (40, -28), (41, -29)], [(24, -12), (25, -13), (32, -18), (33, -19), (40,
    -28), (41, -29)], [(24, -12), (25, -13), (32, -18), (33, -19), (40, -28), (41, -29)], [(24,
    -12), (25, -13), (32, -18), (33, -19), (40, -28), (41, -29)], [(24, -12), (25, -13), (32,
    -18), (33, -19), (40, -28), (41, -29)], [(24, -12), (25, -13), (32, -18), (33, -19), (40,
    -28), (41, -29)], [(24, -12), (25, -13), (32, -18), (33, -19), (40, -28), (41, -29)], [(24,
    -12), (25, -13), (32, -18), (33, -19), (40, -28), (41, -29)], [(8, -15)], [(8, -15)], [(8,
    -4)], [(8, -2), (10, -8)], [(8, 0), (10, -6)], [(8, 2), (10, -4)], [(8, 4), (10, -2)], [(8,
    6), (10, 0)], [(8, -4)], [(8, 8), (10, 2)]],
    [[(8, -5)], [(16, -3)], [(8, -3)], [(8, 8)], [(8, 10)], [(8, -1)], [(8, 8)], [(8, 11)], [(8,
    8)], [(8, 8)], [(8, 8)], [(8, 8)], [(8, 8)], [(8, 8)], [(8, 8)], [(8, 8)], [(8, 8)], [(8,
    -3)], [(8, -1)], [(8, 12), (10, 2)], [(8, 1), (10, -9)], [(8, -3)], [(8, 8)], [(8, -3)], [(8,
    1)]],
    [[(8, -21)], [(8, 8)], [(8, -3)], [(8, 8)], [(8, -1)], [(8, 10)], [(8, 8)], [(16, -3)], [(16,
    -3)], [(24, -14)], [(8, -3)], [(8, 8)], [(8, 8)], [(8, 8)], [(8, -3)], [(8, -3)], [(8, -3)],
    [(8, -3)], [(8, 8)], [(8, 1)], [(8, 1)], [(8, -8)], [(8, 3)], [(16, -3), (24, -6)], [(25,
    -12), (33, -18)]],
    [[(33, -23), (41, -29)], [(8, -3)], [(8, -14)], [(8, -3)], [(8, -3)], [(8, 7)], [(16, -2)],
    [(8, -2)], [(8, 9)], [(8, 9)], [(8, 9)], [(8, 9)], [(8, 9)], [(8, 9)], [(8, 14)], [(8, 16)],
    [(8, 18)], [(8, 9)], [(8, -13)], [(8, 9)], [(8, -9)], [(8, 9)], [(8, 11)], [(8, 0)], [(8,
    11)]],
    [[(8, 9)], [(16, -2)], [(24, -13)], [(16, -2)], [(16, -2)], [(8, -2)], [(8, 9)], [(8, 9)],
    [(8, -2)], [(8, 9)], [(8, -2)], [(8, 2)], [(8, 4)], [(8, -7)], [(8, 9), (24, -5)], [(25, -11),
    (33, -17)], [(8, 9)], [(8, -2)], [(8, -2)], [(8, 9)], [(24, -12)], [(8, -12)], [(8, 10)], [(8,
    10)], [(8, 10)]],
    [[(8, 10)], [(8, 10)], [(8, 10)], [(8, 10)], [(8, 15)], [(8, 17)], [(8, 19)], [(8, 10)], [(8,
    -12)], [(8, -8)], [(8, 1)], [(8, 12)], [(24, -12)], [(8, -1)], [(8, 10)], [(8, -1)], [(8,
    -1)], [(8, 3)], [(8, 5)], [(8, -1)], [(8, 10)], [(8, 10)], [(24, -11)], [(8, 11)], [(8, 11)]],
    [[(8, 16)], [(8, 18)], [(8, 20)], [(8, -11)], [(8, -18)], [(8, -7)], [(8, 13)], [(8, 2)], [(8,
    13)], [(16, 0)], [(8, 0)], [(8, 11)], [(8, 0)], [(8, 0)], [(8, 0)], [(16, 1)], [(24, -10)],
    [(8, 1)], [(8, -17)], [(8, -6)], [(8, 3)], [(8, 14)], [(8, 14)], [(8, 1)], [(8, 12)]],
    [[(8, 12)], [(8, 1)], [(8, 13)], [(16, 2)], [(8, 13)], [(8, -16)], [(8, 6)], [(8, 15)], [(8,
    13)], [(8, 2)], [(8, 13)], [(8, 14)], [(8, -4)], [(8, 3)], [(8, 8)], [(8, 15)]]]

/-! ## What the tokens of a symbol do -/

/-- What a nonterminal leaves open. -/
def ntOpens : Nt → Int
  | .startInterface => 2
  | .endInterface => -2
  | .optionalOpen => 2
  | .genRequireBegin => 1
  | .booleanOpen => 1
  | _ => 0

/-- The number of a part of a text. -/
def partCode : TextPart → Nat
  | .top => 0
  | .code => 1
  | .macro q => q + 2

/-- The part with that number. -/
def partOf : Nat → TextPart
  | 0 => .top
  | 1 => .code
  | q + 2 => .macro q

/-- The parts that occur. -/
def someParts : List TextPart := [.top, .code, .macro 0, .macro 1, .macro 2, .macro 3]

/-- Where the next symbol stands, if this one may stand here. -/
def symPart (q : TextPart) : Sym → Option TextPart
  | .t x => some (q.after x)
  | .n x =>
    if q ∈ someParts ∧ (ntParts[x.code - 100]?.getD 0).testBit (partCode q) = true then
      some (if q = .top then (if x = .comment ∨ x = .comments then .top else .code) else q)
    else none

/-- What a symbol opens. -/
def symOpens (q : TextPart) : Sym → Int
  | .t x => if q.quoted && !isQuote x then 0 else bracket x
  | .n x => ntOpens x

/-- Behind the symbol a sign that waited may still wait. -/
def symSafe : Sym → Bool
  | .t x => !endsSigns x
  | .n x => decide (x ∈ signNts)

/-- The words that a symbol stands for at least. -/
def symWords : Sym → Nat
  | .t x => if isQuote x then 0 else 1
  | .n x => if x = .m4StringElem then 1 else 0

/-- The comments that a symbol stands for at least. -/
def symComments : Sym → Nat
  | .t x => if x = .comment then 1 else 0
  | .n x => if x = .comment then 1 else 0

/-- `symPart` for several symbols. -/
def seqPart (q : TextPart) : List Sym → Option TextPart
  | [] => some q
  | x :: xs => (symPart q x).bind (seqPart · xs)

/-- `symOpens` for several symbols. -/
def seqOpens (q : TextPart) : List Sym → Int
  | [] => 0
  | x :: xs => symOpens q x + ((symPart q x).map (seqOpens · xs)).getD 0

/-- All of the symbols stand in such a part, and so does what comes next. -/
def seqIn (f : TextPart → Bool) (q : TextPart) : List Sym → Bool
  | [] => f q
  | x :: xs => f q && (symPart q x).all (seqIn f · xs)

/-- The words of several symbols. -/
def seqWords (xs : List Sym) : Nat := (xs.map symWords).sum

/-- The comments of several symbols. -/
def seqComments (xs : List Sym) : Nat := (xs.map symComments).sum

/-- The part with only comments. -/
def isTop (q : TextPart) : Bool := decide (q = .top)

/-- What is checked of a production in a part of a text. -/
def checkPiles (r : Rule) (q : TextPart) : Bool :=
  (symPart q (.n r.lhs)).all fun q' =>
    decide (seqPart q r.rhs = some q') && decide (seqOpens q r.rhs = ntOpens r.lhs) &&
    (!q.quoted || (seqIn TextPart.quoted q r.rhs && decide (symWords (.n r.lhs) ≤ seqWords r.rhs))) &&
    (!(isTop q && isTop q') || (seqIn isTop q r.rhs &&
      decide (symComments (.n r.lhs) ≤ seqComments r.rhs)))

theorem piles_checked : rules.all (fun r => someParts.all (checkPiles r)) = true := by decide +kernel

theorem safe_checked : rules.all (fun r => !decide (r.lhs ∈ signNts) || r.rhs.all symSafe) = true := by
  decide +kernel

theorem file_checked : rules.all (fun r => decide (r.lhs ≠ .selinuxFile) ||
    (decide (seqOpens .top r.rhs = 0) && (seqPart .top r.rhs).isSome)) = true := by decide +kernel

/-- What has piled up behind these tokens. -/
def piles (p : PiledUp) (ws : List Term) : PiledUp := ws.foldl PiledUp.read p

theorem piles_append (p : PiledUp) (us ws : List Term) : piles p (us ++ ws) = piles (piles p us) ws :=
  List.foldl_append

/-- What a sequence of symbols does to what has piled up. -/
structure Piles (p p' : PiledUp) (xs : List Sym) (q' : TextPart) : Prop where
  part : p'.part = q'
  opened : p'.opened = p.opened + seqOpens p.part xs
  signs : xs.all symSafe = true → p.signs ≤ p'.signs
  words : seqIn TextPart.quoted p.part xs = true → p.words + seqWords xs ≤ p'.words
  comments : seqIn isTop p.part xs = true → p.comments + seqComments xs ≤ p'.comments

theorem seqIn_head {f : TextPart → Bool} {q : TextPart} {xs : List Sym} (h : seqIn f q xs = true) :
    f q = true := by
  cases xs with
  | nil => exact h
  | cons x xs =>
    simp only [seqIn, Bool.and_eq_true] at h
    exact h.1

theorem _root_.Selint.Spec.Yields.piles {xs : List Sym} {ws : List Term} (h : Yields xs ws) :
    ∀ {p : PiledUp} {q' : TextPart}, seqPart p.part xs = some q' → Piles p (piles p ws) xs q' := by
  induction h with
  | nil =>
    intro p q' hq
    cases hq
    exact ⟨rfl, by simp [Lr.piles, seqOpens], fun _ => Nat.le_refl _, fun _ => Nat.le_refl _,
      fun _ => Nat.le_refl _⟩
  | @token x xs ws h ih =>
    intro p q' hq
    simp only [seqPart, symPart, Option.bind_some] at hq
    obtain ⟨h₁, h₂, h₃, h₄, h₅⟩ := ih (p := p.read x) hq
    refine ⟨h₁, ?_, fun hs => ?_, fun hs => ?_, fun hs => ?_⟩
    · show (Lr.piles (p.read x) ws).opened = _
      rw [h₂]
      simp only [seqOpens, symOpens, symPart, Option.map_some, Option.getD_some, PiledUp.read]
      split <;> omega
    · show _ ≤ (Lr.piles (p.read x) ws).signs
      simp only [List.all_cons, Bool.and_eq_true, symSafe, Bool.not_eq_true'] at hs
      refine Nat.le_trans ?_ (h₃ hs.2)
      simp only [PiledUp.read, hs.1, Bool.false_eq_true, if_false]
      split <;> omega
    · show _ ≤ (Lr.piles (p.read x) ws).words
      simp only [seqIn, symPart, Option.all_some, Bool.and_eq_true] at hs
      have := h₄ hs.2
      have hq := seqIn_head hs.2
      have hw : (p.read x).words = if isQuote x then p.words else p.words + 1 := if_pos hq
      rw [hw] at this
      simp only [seqWords, List.map_cons, List.sum_cons, symWords] at this ⊢
      cases hx : isQuote x <;> rw [hx] at this <;>
        simp only [Bool.false_eq_true, if_false, if_true] at this ⊢ <;> omega
    · show _ ≤ (Lr.piles (p.read x) ws).comments
      simp only [seqIn, symPart, Option.all_some, Bool.and_eq_true] at hs
      have := h₅ hs.2
      have hq : p.part.after x = .top := of_decide_eq_true (seqIn_head hs.2)
      have hp : p.part = .top := of_decide_eq_true hs.1
      have hx : x = .comment := by
        rw [hp] at hq
        cases x with
        | comment => rfl
        | kw k => cases k <;> cases hq
        | _ => cases hq
      have hw : (p.read x).comments = p.comments + 1 := if_pos ⟨hp, hx⟩
      rw [hw] at this
      have hx' : symComments (.t x) = 1 := if_pos hx
      simp only [seqComments, List.map_cons, List.sum_cons, hx'] at this ⊢
      omega
  | @production r xs us ws hr hy h ih₁ ih =>
    intro p q' hq
    simp only [seqPart, Option.bind_eq_some_iff] at hq
    obtain ⟨q₁, hq₁, hq⟩ := hq
    have hpart : p.part ∈ someParts := by
      simp only [symPart] at hq₁
      split at hq₁
      · rename_i hc
        exact hc.1
      · cases hq₁
    have hc := List.all_eq_true.1 (List.all_eq_true.1 piles_checked r hr) _ hpart
    simp only [checkPiles, hq₁, Option.all_some, Bool.and_eq_true, decide_eq_true_eq,
      Bool.or_eq_true, Bool.not_eq_true', Bool.and_eq_false_iff] at hc
    obtain ⟨⟨⟨c₁, c₂⟩, c₃⟩, c₄⟩ := hc
    obtain ⟨h₁, h₂, h₃, h₄, h₅⟩ := ih₁ c₁
    rw [piles_append]
    obtain ⟨k₁, k₂, k₃, k₄, k₅⟩ := ih (p := Lr.piles p us) (q' := q') (by rw [h₁]; exact hq)
    refine ⟨k₁, ?_, fun hs => ?_, fun hs => ?_, fun hs => ?_⟩
    · rw [k₂, h₂, h₁, c₂]
      simp only [seqOpens, symOpens, hq₁, Option.map_some, Option.getD_some]
      omega
    · simp only [List.all_cons, Bool.and_eq_true] at hs
      have hsafe := List.all_eq_true.1 safe_checked r hr
      simp only [symSafe] at hs
      simp only [hs.1, Bool.not_true, Bool.false_or] at hsafe
      exact Nat.le_trans (h₃ hsafe) (k₃ hs.2)
    · simp only [seqIn, hq₁, Option.all_some, Bool.and_eq_true] at hs
      rcases c₃ with c₃ | c₃
      · rw [hs.1] at c₃
        cases c₃
      · have a := h₄ c₃.1
        have b := k₄ (by rw [h₁]; exact hs.2)
        simp only [seqWords, List.map_cons, List.sum_cons] at *
        omega
    · simp only [seqIn, hq₁, Option.all_some, Bool.and_eq_true] at hs
      have ht := seqIn_head hs.2
      rcases c₄ with (c₄ | c₄) | c₄
      · rw [hs.1] at c₄
        cases c₄
      · rw [ht] at c₄
        cases c₄
      · have a := h₅ c₄.1
        have b := k₅ (by rw [h₁]; exact hs.2)
        simp only [seqComments, List.map_cons, List.sum_cons] at *
        omega
/-! ## The stack -/

/-- What waits on the stack: the part of the text, and whether there are comments, signs or words of
a quoted text that are not finished. -/
structure Waiting where
  part : TextPart
  comments : Bool
  signs : Bool
  words : Bool
  deriving DecidableEq

/-- The numbers in `heightTable`. -/
def Waiting.ofCode (n : Nat) : Waiting :=
  ⟨partOf (n / 8), (n / 4) % 2 == 1, (n / 2) % 2 == 1, n % 2 == 1⟩

/-- What the tokens account for. -/
def Waiting.height (n : Waiting) (p : PiledUp) : Int :=
  11 * p.opened + (if n.signs then 11 * (p.signs : Int) else 0) +
    (if n.comments then (p.comments : Int) else 0) + (if n.words then (p.words : Int) else 0)

/-- One more symbol on the stack: what waits then, and what the tokens account for in addition. -/
def Waiting.step (n : Waiting) : Sym → Option (Waiting × Int)
  | .t x =>
    let c := isTop n.part && decide (x = .comment)
    if (n.comments && !c) || (n.signs && endsSigns x) || (n.words && !(n.part.after x).quoted) then none
    else some (⟨n.part.after x, c, n.signs || isSign x, n.words⟩,
      11 * symOpens n.part (.t x) + (if c then 1 else 0) + (if isSign x then 11 else 0) +
        (if n.words && !isQuote x then 1 else 0))
  | .n x =>
    (symPart n.part (.n x)).bind fun q =>
      if (n.comments && !isTop q) || (n.signs && !symSafe (.n x)) || (n.words && !n.part.quoted) ||
        (decide (x = .m4StringElem) && !n.part.quoted) then none
      else
        let c := isTop q && decide (x = .comment)
        some (⟨q, n.comments || c, n.signs, n.words || decide (x = .m4StringElem)⟩,
          11 * ntOpens x + (if c then 1 else 0) + (if x = .m4StringElem then 1 else 0))

/-- How a state is reached. -/
def heightsAt (s : Nat) : List (Nat × Int) := ((heightTable[s / 25]?).bind (·[s % 25]?)).getD []

/-- The symbol with that number. -/
def symOf (x : Nat) : Option Sym :=
  if x < 100 then termTable[x]?.map .t else ntTable[x - 100]?.map .n

/-- What is checked of a way to a state. -/
def checkHeight (u : Nat) (x : Nat × Nat) : Bool :=
  (symOf x.1).any fun y =>
    if y = .n .selinuxFile then u == 0 && x.2 == lalrFinal else
      u != lalrFinal && (heightsAt u).all fun e => ((Waiting.ofCode e.1).step y).any fun z =>
        (heightsAt x.2).any fun e' => decide (Waiting.ofCode e'.1 = z.1) && decide (e.2 + 1 ≤ e'.2 + z.2)

theorem heights_checked : (List.range 24).all (fun i => (List.range 25).all fun j =>
    (lalrRow (25 * i + j)).all fun row => row.shifts.all (checkHeight (25 * i + j)) &&
      row.gotos.all (checkHeight (25 * i + j))) = true := by decide +kernel

theorem heights_small : heightTable.all (fun es => es.all fun e => e.all fun x => decide (x.2 ≤ 20)) =
    true := by decide +kernel

theorem heightsAt_le {s : Nat} {e : Nat × Int} (h : e ∈ heightsAt s) : e.2 ≤ 20 := by
  unfold heightsAt at h
  cases ht : (heightTable[s / 25]?).bind (·[s % 25]?) with
  | none =>
    rw [ht] at h
    cases h
  | some es =>
    rw [ht] at h
    simp only [Option.bind_eq_some_iff] at ht
    obtain ⟨ess, h₁, h₂⟩ := ht
    have := List.all_eq_true.1 (List.all_eq_true.1 (List.all_eq_true.1 heights_small ess
      (List.mem_of_getElem? h₁)) es (List.mem_of_getElem? h₂)) e h
    simpa using this

theorem height_of {u s x : Nat} (hx : lalrAction u x = some (.shift s) ∨ lalrGoto u x = some s) :
    checkHeight u (x, s) = true := by
  have key : ∀ {row : LalrRow}, lalrRow u = some row →
      row.shifts.all (checkHeight u) = true ∧ row.gotos.all (checkHeight u) = true := by
    intro row hrow
    obtain ⟨i, hi, -, hii⟩ := row_place hrow
    have := List.all_eq_true.1 (List.all_eq_true.1 heights_checked i (List.mem_range.2 hi)) (u % 25)
      (List.mem_range.2 (Nat.mod_lt _ (by omega)))
    have e : 25 * i + u % 25 = u := by omega
    rw [e, hrow] at this
    simpa only [Option.all_some, Bool.and_eq_true] using this
  rcases hx with ha | hg
  · simp only [lalrAction] at ha
    split at ha
    · cases ha
    · simp only [Option.bind_eq_some_iff] at ha
      obtain ⟨row, hrow, ha⟩ := ha
      split at ha
      · rename_i y hy
        cases ha
        have := List.all_eq_true.1 (key hrow).1 y (List.mem_of_find?_eq_some hy)
        have hyx : y.1 = x := by simpa using List.find?_some hy
        rw [← hyx]
        exact this
      · split at ha
        · cases ha
        · simp only [Option.map_eq_some_iff] at ha
          obtain ⟨q, hq, ha⟩ := ha
          cases ha
  · simp only [lalrGoto, Option.bind_eq_some_iff, Option.map_eq_some_iff] at hg
    obtain ⟨row, hrow, y, hy, rfl⟩ := hg
    have := List.all_eq_true.1 (key hrow).2 y (List.mem_of_find?_eq_some hy)
    have hyx : y.1 = x := by simpa using List.find?_some hy
    rw [← hyx]
    exact this

theorem symOf_code {x y : Sym} (h : symOf x.code = some y) : y = x := by
  cases x with
  | t x =>
    have h : (if x.code < 100 then termTable[x.code]?.map Sym.t
      else ntTable[x.code - 100]?.map Sym.n) = some y := h
    rw [if_pos (Term.code_lt x), Option.map_eq_some_iff] at h
    obtain ⟨z, hz, rfl⟩ := h
    rcases x.code_table with hc | hc
    · rw [hc] at hz
      cases hz
    · rw [hz] at hc
      cases hc
      rfl
  | n x =>
    have hge := Nt.code_ge x
    have h : (if x.code < 100 then termTable[x.code]?.map Sym.t
      else ntTable[x.code - 100]?.map Sym.n) = some y := h
    rw [if_neg (Nat.not_lt.2 hge), Option.map_eq_some_iff] at h
    obtain ⟨z, hz, rfl⟩ := h
    have hc := x.code_table
    rw [hz] at hc
    cases hc
    rfl

/-- A token that is put on the stack. -/
theorem Waiting.step_token {n n' : Waiting} {x : Term} {w : Int} (h : n.step (.t x) = some (n', w))
    {p : PiledUp} (hp : p.part = n.part) :
    (p.read x).part = n'.part ∧ n.height p + w ≤ n'.height (p.read x) := by
  simp only [Waiting.step] at h
  split at h
  · cases h
  · rename_i hc
    simp only [Bool.or_eq_true, Bool.and_eq_true, Bool.not_eq_true', not_or] at hc
    obtain ⟨⟨hc₁, hc₂⟩, hc₃⟩ := hc
    cases h
    refine ⟨by simp only [PiledUp.read, hp], ?_⟩
    have e₁ : (p.read x).opened = p.opened + symOpens n.part (.t x) := by
      simp only [PiledUp.read, symOpens, hp]
      split <;> omega
    have e₂ : (if n.signs then 11 * (p.signs : Int) else 0) + (if isSign x then 11 else 0) ≤
        if (n.signs || isSign x) then 11 * ((p.read x).signs : Int) else 0 := by
      simp only [PiledUp.read]
      cases hn : n.signs <;> cases hx : isSign x <;> cases he : endsSigns x <;> simp_all
      all_goals first | omega | (cases x with
        | p k => cases k <;> simp_all [isSign, endsSigns]
        | _ => simp_all [isSign])
    have e₃ : (if n.comments then (p.comments : Int) else 0) +
        (if (isTop n.part && decide (x = .comment)) then 1 else 0) ≤
        if (isTop n.part && decide (x = .comment)) then ((p.read x).comments : Int) else 0 := by
      cases hb : (isTop n.part && decide (x = .comment)) with
      | false =>
        have : n.comments = false := by
          cases hn : n.comments with
          | false => rfl
          | true => exact absurd ⟨hn, hb⟩ hc₁
        simp [this]
      | true =>
        simp only [Bool.and_eq_true, isTop, decide_eq_true_eq] at hb
        have : (p.read x).comments = p.comments + 1 := if_pos ⟨hp.trans hb.1, hb.2⟩
        rw [this]
        simp only [if_true]
        split <;> omega
    have e₄ : (if n.words then (p.words : Int) else 0) + (if n.words && !isQuote x then 1 else 0) ≤
        if n.words then ((p.read x).words : Int) else 0 := by
      cases hn : n.words with
      | false => simp
      | true =>
        have hq : (p.part.after x).quoted = true := by
          cases hq : (n.part.after x).quoted with
          | true => rw [hp]; exact hq
          | false => exact absurd ⟨hn, hq⟩ hc₃
        have : (p.read x).words = if isQuote x then p.words else p.words + 1 := if_pos hq
        rw [this]
        cases isQuote x <;> simp
    simp only [Waiting.height, e₁]
    omega

/-- A nonterminal that is put on the stack. -/
theorem Waiting.step_nt {n n' : Waiting} {x : Nt} {w : Int} (h : n.step (.n x) = some (n', w))
    {p : PiledUp} (hp : p.part = n.part) {ws : List Term} (hy : Yields [.n x] ws) :
    (Lr.piles p ws).part = n'.part ∧ n.height p + w ≤ n'.height (Lr.piles p ws) := by
  simp only [Waiting.step, Option.bind_eq_some_iff] at h
  obtain ⟨q, hq, h⟩ := h
  split at h
  · cases h
  · rename_i hc
    simp only [Bool.or_eq_true, Bool.and_eq_true, Bool.not_eq_true', not_or] at hc
    obtain ⟨⟨⟨hc₁, hc₂⟩, hc₃⟩, hc₄⟩ := hc
    cases h
    obtain ⟨h₁, h₂, h₃, h₄, h₅⟩ := hy.piles (p := p) (q' := q) (by
      rw [hp, seqPart, hq]
      rfl)
    refine ⟨h₁, ?_⟩
    generalize Lr.piles p ws = p' at *
    have e₁ : p'.opened = p.opened + ntOpens x := by
      rw [h₂, hp]
      simp only [seqOpens, symOpens, hq, Option.map_some, Option.getD_some]
      omega
    have e₂ : (if n.signs then 11 * (p.signs : Int) else 0) ≤
        if n.signs then 11 * (p'.signs : Int) else 0 := by
      cases hn : n.signs with
      | false => simp
      | true =>
        have : symSafe (.n x) = true := by
          cases hs : symSafe (.n x) with
          | true => rfl
          | false => exact absurd ⟨hn, hs⟩ hc₂
        have := h₃ (by simp [this])
        simp only [if_true]
        omega
    have e₃ : (if n.comments then (p.comments : Int) else 0) +
        (if (isTop q && decide (x = .comment)) then 1 else 0) ≤
        if (n.comments || (isTop q && decide (x = .comment))) then (p'.comments : Int) else 0 := by
      cases ht : isTop q with
      | false =>
        have : n.comments = false := by
          cases hn : n.comments with
          | false => rfl
          | true => exact absurd ⟨hn, ht⟩ hc₁
        simp [this]
      | true =>
        have htop : isTop n.part = true := by
          simp only [symPart] at hq
          split at hq
          · simp only [Option.some.injEq] at hq
            split at hq
            · rename_i hn
              exact decide_eq_true hn
            · rw [hq]
              exact ht
          · cases hq
        have := h₅ (by
          rw [hp]
          simp only [seqIn, hq, Option.all_some, htop, ht, Bool.and_self])
        simp only [seqComments, List.map_cons, List.map_nil, List.sum_cons, List.sum_nil,
          symComments] at this
        cases n.comments <;> by_cases hx : x = .comment <;> simp_all <;> omega
    have e₄ : (if n.words then (p.words : Int) else 0) + (if x = .m4StringElem then 1 else 0) ≤
        if (n.words || decide (x = .m4StringElem)) then (p'.words : Int) else 0 := by
      cases hb : (n.words || decide (x = .m4StringElem)) with
      | false =>
        simp only [Bool.or_eq_false_iff, decide_eq_false_iff_not] at hb
        simp [hb.1, hb.2]
      | true =>
        have hquo : n.part.quoted = true := by
          cases hn : n.part.quoted with
          | true => rfl
          | false =>
            simp only [Bool.or_eq_true] at hb
            rcases hb with hb | hb
            · exact absurd ⟨hb, hn⟩ hc₃
            · exact absurd ⟨hb, hn⟩ hc₄
        have hqq : q = n.part := by
          simp only [symPart] at hq
          split at hq
          · simp only [Option.some.injEq] at hq
            split at hq
            · rename_i hn
              rw [hn] at hquo
              cases hquo
            · exact hq.symm
          · cases hq
        have := h₄ (by
          rw [hp]
          simp only [seqIn, hq, Option.all_some, hqq, hquo, Bool.and_self])
        simp only [seqWords, List.map_cons, List.map_nil, List.sum_cons, List.sum_nil,
          symWords] at this
        by_cases hx : x = .m4StringElem
        · simp only [hx, if_true] at this ⊢
          split <;> omega
        · simp only [hx, if_false, if_true] at this ⊢
          split <;> omega
    simp only [Waiting.height, e₁]
    omega

/-- How high the stack is. -/
theorem Linked.height {stk : List (Nat × Sym)} (h : Linked stk) :
    ∀ {ws : List Term}, Yields (stk.map (·.2)).reverse ws →
    (topState stk = lalrFinal ∧ stk.length = 1 ∧ 0 ≤ (piledUp ws).opened) ∨
    ∃ e ∈ heightsAt (topState stk), (piledUp ws).part = (Waiting.ofCode e.1).part ∧
      (stk.length : Int) ≤ e.2 + (Waiting.ofCode e.1).height (piledUp ws) := by
  have key : ∀ {s : Nat} {x : Sym} {stk : List (Nat × Sym)}, Linked stk →
      (lalrAction (topState stk) x.code = some (.shift s) ∨ lalrGoto (topState stk) x.code = some s) →
      (∀ {ws : List Term}, Yields (stk.map (·.2)).reverse ws →
        (topState stk = lalrFinal ∧ stk.length = 1 ∧ 0 ≤ (piledUp ws).opened) ∨
        ∃ e ∈ heightsAt (topState stk), (piledUp ws).part = (Waiting.ofCode e.1).part ∧
          (stk.length : Int) ≤ e.2 + (Waiting.ofCode e.1).height (piledUp ws)) →
      ∀ {ws : List Term}, Yields ((((s, x) :: stk).map (·.2)).reverse) ws →
        (topState ((s, x) :: stk) = lalrFinal ∧ ((s, x) :: stk).length = 1 ∧ 0 ≤ (piledUp ws).opened) ∨
        ∃ e ∈ heightsAt (topState ((s, x) :: stk)), (piledUp ws).part = (Waiting.ofCode e.1).part ∧
          (((s, x) :: stk).length : Int) ≤ e.2 + (Waiting.ofCode e.1).height (piledUp ws) := by
    intro s x stk hk hx ih ws hy
    rw [List.map_cons, List.reverse_cons] at hy
    obtain ⟨us, vs, rfl, hu, hv⟩ := hy.split rfl
    have hc := height_of hx
    simp only [checkHeight, option_any] at hc
    obtain ⟨y, hy', hc⟩ := hc
    obtain rfl := symOf_code hy'
    have htop : topState ((s, y) :: stk) = s := rfl
    rw [htop]
    split at hc
    · rename_i hsel
      subst hsel
      simp only [Bool.and_eq_true, beq_iff_eq] at hc
      have hnil := hk.first hc.1
      subst hnil
      cases hu
      refine .inl ⟨hc.2, rfl, ?_⟩
      generalize hxs : [Sym.n .selinuxFile] = xs at hv
      cases hv with
      | nil => cases hxs
      | token _ => cases hxs
      | @production r xs us ws hr hyr h =>
        simp only [List.cons.injEq, Sym.n.injEq] at hxs
        obtain ⟨hl, rfl⟩ := hxs
        cases h
        have hf := List.all_eq_true.1 file_checked r hr
        simp only [← hl, ne_eq, not_true_eq_false, decide_false, Bool.false_or, Bool.and_eq_true,
          decide_eq_true_eq, Option.isSome_iff_exists] at hf
        obtain ⟨hf, q, hq⟩ := hf
        have := (hyr.piles (p := {}) hq).opened
        rw [List.append_nil, List.nil_append]
        show 0 ≤ (Lr.piles {} us).opened
        rw [this]
        show 0 ≤ (0 : Int) + seqOpens .top r.rhs
        rw [hf]
        exact Int.le_refl 0
    · simp only [Bool.and_eq_true, bne_iff_ne, ne_eq, List.all_eq_true, option_any,
        List.any_eq_true, decide_eq_true_eq] at hc
      obtain ⟨hnf, hc⟩ := hc
      rcases ih hu with hi | ⟨e, he, hpart, hlen⟩
      · exact absurd hi.1 hnf
      · obtain ⟨⟨n', w⟩, hz, e', he', hn', hle⟩ := hc e he
        refine .inr ⟨e', he', ?_⟩
        rw [hn']
        have hstep : (piledUp (us ++ vs)).part = n'.part ∧
            (Waiting.ofCode e.1).height (piledUp us) + w ≤ n'.height (piledUp (us ++ vs)) := by
          have e₁ : piledUp (us ++ vs) = Lr.piles (piledUp us) vs := piles_append {} us vs
          rw [e₁]
          cases y with
          | t x =>
            cases hv with
            | token hv =>
              cases hv
              exact Waiting.step_token hz hpart
          | n x => exact Waiting.step_nt hz hpart hv
        refine ⟨hstep.1, ?_⟩
        have hle : e.2 + 1 ≤ e'.2 + w := hle
        have := hstep.2
        simp only [List.length_cons, Int.natCast_add, Int.cast_ofNat_Int]
        omega
  induction h with
  | nil =>
    intro ws hy
    cases hy
    exact .inr ⟨(0, 0), by decide +kernel, rfl, by decide +kernel⟩
  | tok hk ha ih => exact key (x := .t _) hk (.inl ha) ih
  | nt hk hg ih => exact key (x := .n _) hk (.inr hg) ih

/-- There is room for the stack. -/
theorem Linked.room {stk : List (Nat × Sym)} (h : Linked stk) {ws : List Term}
    (hy : Yields (stk.map (·.2)).reverse ws) : (stk.length : Int) + 1 ≤ (piledUp ws).room := by
  rcases h.height hy with ⟨-, hl, ho⟩ | ⟨e, he, -, hl⟩
  · rw [hl]
    simp only [PiledUp.room]
    omega
  · have := heightsAt_le he
    simp only [Waiting.height] at hl
    simp only [PiledUp.room]
    split at hl <;> split at hl <;> split at hl <;> omega

end Lr
end Selint
