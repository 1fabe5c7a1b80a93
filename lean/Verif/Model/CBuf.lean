import Verif.Model.Basic
/-!
# C strings in a byte buffer

Code that tokenises a line in place works on the buffer byte by byte: reading an
uninitialised byte or accessing an index outside of the buffer is undefined behaviour.
-/

namespace Selint

/-- A byte buffer; `none` is an uninitialised byte. -/
abbrev LineBytes := List (Option Char)

/-- `b[i]`, read. -/
def LineBytes.rd (b : LineBytes) (i : Nat) : Res Char :=
  match b[i]? with
  | some (some c) => .ok c
  | _ => .ub

/-- `b[i] = c`. -/
def LineBytes.wr (b : LineBytes) (i : Nat) (c : Char) : Res LineBytes :=
  if i < b.length then .ok (b.set i (some c)) else .ub

/-- The C string that starts at `i`, as `strdup` and the hash table functions read it. -/
def LineBytes.str (b : LineBytes) : Nat → Nat → Res Str
  | 0, _ => .ub
  | fuel + 1, i => do
    let c ← b.rd i
    if c = '\x00' then pure [] else do
      let s ← LineBytes.str b fuel (i + 1)
      pure (c :: s)

/-- `while (p(b[i])) i++`. -/
def scanWhile (p : Char → Bool) (b : LineBytes) : Nat → Nat → Res Nat
  | 0, _ => .ub
  | fuel + 1, i => do
    if p (← b.rd i) then scanWhile p b fuel (i + 1) else pure i

/-- The buffer after `getline` read `line`: the line, a NUL and whatever the buffer held
behind it before. -/
def lineBuf (line : Str) (tail : LineBytes) : LineBytes := line.map some ++ some '\x00' :: tail

/-- libc `strtok(…, delimiters)` starting at `i` (the argument, or the saved position). The
result is the buffer, the saved position and the token, `none` for NULL. -/
def strtokB (delim : Char → Bool) (b : LineBytes) (i : Nat) :
    Res (LineBytes × Nat × Option Nat) := do
  -- strspn
  let s ← scanWhile delim b (b.length + 1) i
  if (← b.rd s) = '\x00' then pure (b, s, none)
  else do
    -- strcspn
    let e ← scanWhile (fun c => !delim c && c ≠ '\x00') b (b.length + 1) s
    if (← b.rd e) = '\x00' then pure (b, e, some s)
    else do
      let b ← b.wr e '\x00'
      pure (b, e + 1, some s)

end Selint
