import Verif.Model.LineCache
import Verif.Spec.Lex
/-!
# Lines of a file and how an error shows them

The lines of a text, what it means to keep the latest of them, and the picture of a line with
a marker below.
-/

namespace Selint.Spec

/-- The lines of a text, each with its newline; the last one may have none. -/
inductive LinesOf : Str → List Str → Prop
  | nil : LinesOf [] []
  | last {l : Str} (hn : '\n' ∉ l) (hl : l ≠ []) : LinesOf l [l]
  | line {l rest : Str} {ls : List Str} (hn : '\n' ∉ l) (h : LinesOf rest ls) :
      LinesOf (l ++ '\n' :: rest) ((l ++ ['\n']) :: ls)

/-- Of the lines seen so far the latest five are found by counting back from the index. -/
structure KeepsLines (c : LineCache) (seen : List Str) : Prop where
  size : c.lines.length = linesToCache
  index : c.index = seen.length % linesToCache
  kept : ∀ k, 1 ≤ k → k ≤ linesToCache → k ≤ seen.length →
    ∃ l, seen[seen.length - k]? = some l ∧
      c.lines[(linesToCache + c.index - k + 1) % linesToCache]? = some (some l)

/-- Any number of calls of `YY_INPUT`, each with room for at least one character: the
characters handed out, the state and the rest of the file afterwards. -/
inductive Feeds : LineCache → Str → Str → LineCache → Str → Prop
  | none {c file} : Feeds c file [] c file
  | call {c file got c' file' more c'' file''} {room : Nat} (hr : 0 < room)
      (h : yyInput room c file = .ok (got, c', file')) (hs : Feeds c' file' more c'' file'') :
      Feeds c file (got ++ more) c'' file''

/-- What has been read of the current line and not been handed out. -/
def pending (c : LineCache) : Str :=
  match c.lines[c.index]? with
  | some (some l) => l.drop c.sent
  | _ => []

/-- A tab is shown as four blanks. -/
def expand (s : Str) : Str := s.flatMap fun c => if c = '\t' then cs!"    " else [c]

/-- A character of ASCII that is printable or white space. -/
def Visible (c : Char) : Prop := (32 ≤ c.toNat ∧ c.toNat ≤ 126) ∨ (9 ≤ c.toNat ∧ c.toNat ≤ 13)

/-- Every character of the line can be shown. -/
def Showable (s : Str) : Prop := ∀ c ∈ s, Visible c

/-- Where the character after the first `n` ones of a line is shown; beyond the end of the line
columns go on. -/
def column (line : Str) (n : Nat) : Nat := (expand (line.take n)).length + (n - line.length)

/-- A line with its number, and below it a marker of the given width (at least one) that begins
below column `start` (counted from 0). -/
def picture (color : Bool) (mark : Char) (number : Nat) (line : Str) (start width : Nat) : Str :=
  padLeft ' ' 5 (natToStr number) ++ cs!" |" ++ (if line = [] then [] else cs!" ") ++ expand line ++
    cs!"\n      | " ++ List.replicate start ' ' ++ colorError color ++
    mark :: List.replicate (width - 1) '~' ++ colorReset color ++ cs!"\n"

/-- The picture of a line with a marker below its characters from number `first` to number `last`
(both counted from 1). -/
def marked (color : Bool) (mark : Char) (number : Nat) (line : Str) (first last : Nat) : Str :=
  picture color mark number line (column line (first - 1)) (column line last - column line (first - 1))

/-- The picture of some lines, `line i` being the text shown for line `i`: on the first line of
the location the marker begins at its column, on the others at the first character that is not
blank; on the last line it ends at its column, on the others at the end. -/
def pictures (color : Bool) (loc : Location) (line : Nat → Str) : (mark : Char) → List Nat → Str
  | _, [] => []
  | mark, i :: is =>
    marked color mark i (line i)
      (if i = loc.firstLine then loc.firstColumn else 1 + leadingSpaces (line i))
      (if i = loc.lastLine then loc.lastColumn else (line i).length) ++
    pictures color loc line '~' is

/-- The text shown as line `i` when `last` is the last line of the location: of the lines read the
last one is taken to be line `last`, and the others are counted back from it. -/
def shownLine (seen : List Str) (last i : Nat) : Str := trimRight (seen.getD (i + seen.length - (last + 1)) [])

/-- Columns are counted from 0 on the first line and from 1 on all others. -/
def origin (line : Nat) : Nat := if line = 1 then 0 else 1

/-- The token `t` is made of `text`, which stands in the given line after `pre`; `loc` is its
location, and at this moment the lines up to this one are kept. -/
structure Stands (ls : List Str) (number : Nat) (pre text post : Str) (loc : Location) (t : Token)
    (c : LineCache) : Prop where
  found : 1 ≤ number ∧ ls[number - 1]? = some (pre ++ text ++ post)
  made : text ≠ [] ∧ ∃ i r, Takes lexRules i r text (post ++ (ls.drop number).flatten) ∧ r.act text = some t
  place : loc = ⟨number, origin number + pre.length, number, origin number + pre.length + text.length - 1⟩
  kept : KeepsLines c (ls.take number)

/-- Where the end of a file with these lines is reported: after a newline on the line that begins
there, otherwise on the last line; if there are no lines no rule has set the location. -/
def EndAt (ls : List Str) (before loc : Location) : Prop :=
  (ls = [] ∧ loc = before) ∨
  ((∃ a, ls.getLast? = some (a ++ ['\n'])) ∧ loc = ⟨ls.length + 1, 0, ls.length + 1, 0⟩) ∨
  ((∃ a, ls.getLast? = some a ∧ '\n' ∉ a) ∧ loc.firstLine = ls.length ∧ loc.lastLine = ls.length)

end Selint.Spec
