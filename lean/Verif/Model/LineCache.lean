import Verif.Model.Lex
import Verif.Model.Display
/-!
# The lines kept for error messages, and syntax errors (lex.l:36-84, parse.y:1079-1175)

A line is a string; the model has no null characters within lines. Where the C code reads a
line that has never been stored (a null pointer) the result is `ub`.
-/

namespace Selint

/-- parse.y:77 `LINES_TO_CACHE`. -/
def linesToCache : Nat := 5

/-- lex.l:36-42: `current_lines` (NULL is `none`), `line_cache_index`, `current_line_sent` and
`current_line_len`. -/
structure LineCache where
  lines : List (Option Str)
  index : Nat
  sent : Nat
  len : Nat
  deriving DecidableEq, Repr

/-- lex.l:36-42 at the start, and lex.l:44-52 `reset_current_lines`. -/
def LineCache.fresh : LineCache := ⟨List.replicate linesToCache none, 0, 0, 0⟩

/-- getline(3): the next line with its newline, and what is left; `none` at the end. -/
def getline : Str → Option (Str × Str)
  | [] => none
  | c :: s =>
    if c = '\n' then some ([c], s)
    else match getline s with
      | none => some ([c], [])
      | some (l, r) => some (c :: l, r)

/-- lex.l:61-78: when all of the current line has been handed out, the next one is read. At
the end of the file the line is the empty one (getline(3) allocates a buffer in any case).
Also returned is what is left of the file. -/
def LineCache.refill (c : LineCache) (file : Str) : LineCache × Str :=
  if c.len - c.sent = 0 then
    let index := (c.index + 1) % linesToCache
    match getline file with
    | none => (⟨c.lines.set index (some []), index, 0, 0⟩, file)
    | some (l, rest) => (⟨c.lines.set index (some l), index, 0, l.length⟩, rest)
  else (c, file)

/-- lex.l:60-84 `YY_INPUT`: the characters handed to the scanner, the new state and what is left
of the file. -/
def yyInput (maxSize : Nat) (c : LineCache) (file : Str) : Res (Str × LineCache × Str) :=
  let (c, file) := c.refill file
  let avail := min (c.len - c.sent) maxSize
  match c.lines[c.index]? with
  | some (some l) =>
    if c.sent + avail ≤ l.length then
      .ok ((l.drop c.sent).take avail, { c with sent := c.sent + avail }, file)
    else .ub
  | _ => .ub

/-- parse.y:40-46 `struct location`. -/
structure Location where
  firstLine : Nat
  firstColumn : Nat
  lastLine : Nat
  lastColumn : Nat
  deriving DecidableEq, Repr

/-- Where the scanner is: `yylineno` and `yycolumn`. -/
structure Place where
  line : Nat
  column : Nat
  deriving DecidableEq, Repr

/-- lex.l:29-33 `YY_USER_ACTION`, run before the action of every rule, those of blanks included.
Before it the scanner has counted the newlines of the text: `%option yylineno` makes flex put
`yylineno++; yycolumn = 0` there. -/
def userAction (p : Place) (text : Str) : Location × Place :=
  let line := p.line + newlines text
  let column := if newlines text = 0 then p.column else 0
  (⟨line, column, line, column + text.length - 1⟩, ⟨line, column + text.length⟩)

/-- The scanner working on the lines as they are handed to it: what it returns, in order, with
the location and the lines kept at that moment; at the end of the file (where no rule runs) the
location left by the last rule and the lines kept then. `buf` is what has been handed over and not
been scanned. Simplification: lines are handed over whole (flex calls `YY_INPUT` again when a
line is longer than its buffer, which changes nothing but `sent`). The first argument bounds the
number of steps; `loc` is the location before. -/
def scanLines : Nat → LineCache → (buf file : Str) → Place → Location →
    Option (List (Location × Token × LineCache) × Location × LineCache)
  | 0, _, _, _, _, _ => none
  | fuel + 1, c, [], file, p, loc =>
    match yyInput ((c.refill file).1.len + 1) c file with
    | .ub => none
    | .ok ([], c, _) => some ([], loc, c)
    | .ok (b :: buf, c, file) => scanLines fuel c (b :: buf) file p loc
  | fuel + 1, c, buf, file, p, _ =>
    match lexStep buf with
    | .jam => none
    | .step t text rest =>
      let (loc, p) := userAction p text
      match scanLines fuel c rest file p loc with
      | none => none
      | some (ts, fin) =>
        match t with
        | none => some (ts, fin)
        | some t => some ((loc, t, c) :: ts, fin)

/-- Scanning a file: flex starts with line 1 and column 0. -/
def scanText (text : Str) (loc : Location) : Option (List (Location × Token × LineCache) × Location × LineCache) :=
  scanLines (2 * text.length + 1) .fresh [] text ⟨1, 0⟩ loc

/-! ## `yyerror` -/

/-- The difference of two numbers of type `unsigned`. -/
def usub (a b : Nat) : Nat := (a + 2 ^ 32 - b) % 2 ^ 32

/-- parse.y:1079-1084 `leading_spaces`. -/
def leadingSpaces (s : Str) : Nat := (s.takeWhile fun c => c == ' ' || c == '\t').length

/-- color.c:45-52 `color_error`. -/
def colorError (enabled : Bool) : Str := if enabled then cs!"\x1b[31;1m" else []

/-- color.c:54-61 `color_warning`. -/
def colorWarning (enabled : Bool) : Str := if enabled then cs!"\x1b[33;1m" else []

/-- isprint(3) in the C locale (the program sets no other). -/
def isPrintC (c : Char) : Bool := decide (0x20 ≤ c.toNat ∧ c.toNat ≤ 0x7e)

/-- `%x` -/
def hexDigits (n : Nat) : Str := Nat.toDigits 16 n

/-- `printf("0x%.2x", *c)`: the `char` is signed and is passed as an `int`. -/
def hexOfChar (c : Char) : Str :=
  padLeft '0' 2 (hexDigits (if c.toNat < 0x80 then c.toNat else 2 ^ 32 - 2 ^ 8 + c.toNat))

/-- What becomes of a line: it is printed to its end, with the numbers of tabs before the
marker and under it, or printing ends with a warning. -/
inductive Printed where
  | whole (text : Str) (before inside : Nat)
  | stopped (text : Str)
  deriving DecidableEq, Repr

/-- parse.y:1126-1147: the loop over the characters of a line, from position `pos` on. -/
def printLine (color : Bool) (first last : Nat) : (pos : Nat) → Str → (before inside : Nat) → Printed
  | _, [], before, inside => .whole [] before inside
  | pos, c :: s, before, inside =>
    if c = '\t' then
      match printLine color first last (pos + 1) s
        (if pos < first then before + 1 else before)
        (if pos < first then inside else if pos < last then inside + 1 else inside) with
      | .whole t b i => .whole (cs!"    " ++ t) b i
      | .stopped t => .stopped (cs!"    " ++ t)
    else if !isPrintC c && !isSpaceC c then
      .stopped (colorError color ++ cs!"!" ++ colorReset color ++ cs!"\n" ++ colorWarning color ++
        cs!"Warning" ++ colorReset color ++
        cs!": Line in question contains unprintable character at position " ++ natToStr (pos + 1) ++
        cs!": 0x" ++ hexOfChar c ++ cs!"\n")
    else
      match printLine color first last (pos + 1) s before inside with
      | .whole t b i => .whole (c :: t) b i
      | .stopped t => .stopped (c :: t)

/-- parse.y:1149-1173: the line with the marker. -/
def hintLine (color top : Bool) (first last before inside : Nat) : Str :=
  cs!"\n      | " ++ List.replicate (4 * before) ' ' ++ List.replicate (first - (before + 1)) ' ' ++
    colorError color ++ (if top then cs!"^" else cs!"~") ++
    (if last > first then List.replicate (last - first) '~' ++ List.replicate (3 * inside) '~' else []) ++
    colorReset color ++ cs!"\n"

/-- parse.y:1113-1174: the loop over the lines; `k` lines are left. -/
def showLines (color : Bool) (c : LineCache) (loc : Location) (total : Nat) (shortened : Bool) :
    Nat → Res Str
  | 0 => .ok []
  | k + 1 =>
    match c.lines[(linesToCache + c.index - (k + 1) + 1) % linesToCache]? with
    | some (some l) =>
      let line := trimRight l
      let first := if k + 1 = total ∧ shortened = false then loc.firstColumn else 1 + leadingSpaces line
      let last := if k + 1 = 1 then loc.lastColumn else line.length
      let head := padLeft ' ' 5 (natToStr (usub loc.lastLine k)) ++ cs!" |" ++ (if line = [] then [] else cs!" ")
      match printLine color first last 0 line 0 0 with
      | .stopped t => .ok (head ++ t)
      | .whole t before inside => do
        let rest ← showLines color c loc total shortened k
        .ok (head ++ t ++ hintLine color (decide (k + 1 = total)) first last before inside ++ rest)
    | _ => .ub

/-- parse.y:1086-1175 `yyerror`: all it prints. `filename` is what basename(3) makes of
`parsing_filename`. -/
def yyerror (color : Bool) (filename : Str) (c : LineCache) (loc : Location) (msg : Str) : Res Str := do
  let tag := formatFinding color ⟨filename, loc.firstLine, ⟨'F', 1, msg⟩⟩
  let lines := (usub loc.lastLine loc.firstLine + 1) % 2 ^ 32
  if lines > linesToCache then do
    let rest ← showLines color c loc linesToCache true linesToCache
    .ok (tag ++ padLeft ' ' 5 (natToStr (usub loc.lastLine linesToCache)) ++ cs!" |  ...  [truncated]\n" ++ rest)
  else do
    let rest ← showLines color c loc lines false lines
    .ok (tag ++ rest)

end Selint
