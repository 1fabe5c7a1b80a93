import Verif.Model.Maps
import Verif.Model.CBuf
/-!
# modules.conf (startup.c:100-171)

`load_modules_source` tokenises each line in place. The line buffer of `getline` is modelled
byte by byte: reading an uninitialised byte or accessing an index outside of the buffer is
undefined behaviour.
-/

namespace Selint

/-- startup.c:101-104 `is_space`. -/
def isSpaceMc (c : Char) : Bool := c = ' ' || c = '\t' || c = '\n' || c = '\r'

/-- startup.c:109-111: skip white space. -/
def skipSpaces (b : LineBytes) (i : Nat) : Res Nat := scanWhile isSpaceMc b (b.length + 1) i

/-- startup.c:113-117: skip everything up to the next white space — NUL is not white
space. -/
def skipNonSpaces (b : LineBytes) (i : Nat) : Res Nat := scanWhile (fun c => !isSpaceMc c) b (b.length + 1) i

/-- startup.c:141-144: skip white space, stopping at NUL. -/
def skipSpacesNul (b : LineBytes) (i : Nat) : Res Nat :=
  scanWhile (fun c => c ≠ '\x00' && isSpaceMc c) b (b.length + 1) i

/-- startup.c:106-122 `strip_space`. -/
def stripSpace (b : LineBytes) (i : Nat) : Res (LineBytes × Nat) := do
  let s ← skipSpaces b i
  let e ← skipNonSpaces b s
  let b ← b.wr e '\x00'
  pure (b, s)

/-- `strtok(…, "=")`. -/
def strtokEq (b : LineBytes) (i : Nat) : Res (LineBytes × Nat × Option Nat) :=
  strtokB (fun c => c = '=') b i

/-- The outcome for one line. -/
inductive LineResult where
  /-- `continue`: blank line or comment -/
  | skip
  /-- `insert_into_mods_map(name, status)`, then on to the next line -/
  | entry (name status : Str)
  /-- `insert_into_mods_map(name, status)`, then `return SELINT_PARSE_ERROR` -/
  | entryThenError (name status : Str)
  /-- `return SELINT_PARSE_ERROR` -/
  | error
  deriving DecidableEq, Repr

/-- startup.c:148-166: the name, the status and the check for more. -/
def tokenizeLine (b : LineBytes) : Res LineResult := do
  let (b, save, tok) ← strtokEq b 0
  match tok with
  | none => pure .error
  | some p => do
    let (b, name) ← stripSpace b p
    let (b, save, tok) ← strtokEq b save
    match tok with
    | none => pure .error
    | some p => do
      let (b, status) ← stripSpace b p
      -- insert_into_mods_map reads (and copies) both strings
      let n ← b.str (b.length + 1) name
      let s ← b.str (b.length + 1) status
      let (_, _, tok) ← strtokEq b save
      match tok with
      | none => pure (.entry n s)
      | some _ => pure (.entryThenError n s)

/-- startup.c:137-167: the body of the loop, for a line of `len` characters in the buffer
`b`. -/
def modulesLine (b : LineBytes) (len : Nat) : Res LineResult := do
  if len ≤ 1 then pure .skip
  else if (← b.rd 0) = '#' then pure .skip
  else do
    let pos ← skipSpacesNul b 0
    let c ← b.rd pos
    if c = '#' ∨ c = '\x00' then pure .skip else tokenizeLine b

/-- startup.c:124-171 `load_modules_source` on the lines of the file; each comes with the
rest of the buffer behind it. The result is the return code being SELINT_SUCCESS and the
tables. -/
def loadModulesSource (m : Maps) : List (Str × LineBytes) → Res (Bool × Maps)
  | [] => pure (true, m)
  | (line, tail) :: rest => do
    match ← modulesLine (lineBuf line tail) line.length with
    | .skip => loadModulesSource m rest
    | .entry n s => loadModulesSource (m.insertMod n s) rest
    | .entryThenError n s => pure (false, m.insertMod n s)
    | .error => pure (false, m)

end Selint
