/-!
# C strings and other basics

A C string is modelled by the list of its characters before the terminating NUL.
Simplification: characters are Lean `Char`s, not bytes; the code compares bytes as
`unsigned char` (`strcmp`), and UTF-8 preserves code point order.
-/

namespace Selint

/-- A C string (`char *`, not NULL), without its terminating NUL. -/
abbrev Str := List Char

/-- `cs!"abc"` is the character list `['a','b','c']`; expanded at elaboration so that the
kernel can compute with it. -/
macro:max "cs!" s:str : term => do
  let cs := s.getString.toList.map fun c => Lean.Syntax.mkCharLit c
  let arr : Lean.TSyntaxArray `term := cs.toArray.map fun c => ⟨c.raw⟩
  `((([$arr,*] : List Char)))

/-- Outcome of code that works on raw buffers: a value, or undefined behaviour (an access
outside the object). -/
inductive Res (α : Type) where
  | ok (a : α)
  | ub
  deriving DecidableEq, Repr

namespace Res

/-- Sequencing: undefined behaviour is final. -/
def bind {α β : Type} : Res α → (α → Res β) → Res β
  | ok a, f => f a
  | ub, _ => ub

instance : Monad Res where
  pure := ok
  bind := bind

@[simp] theorem bind_ok {α β : Type} (a : α) (f : α → Res β) : (ok a >>= f) = f a := rfl
@[simp] theorem bind_ub {α β : Type} (f : α → Res β) : (ub >>= f) = ub := rfl
@[simp] theorem pure_eq {α : Type} (a : α) : (pure a : Res α) = ok a := rfl

end Res

/-- selint_error.h:20-31 `enum selint_error`. -/
inductive SelintError where
  | success | badArg | outOfMem | noModName | notInBlock | ifCallLoop | parseError
  | m4SubFailure | configParseError | ioError
  deriving DecidableEq, Repr

/-- libc `strcmp`. Only the sign of its result is specified by the C standard; the model
returns -1, 0 or 1. -/
def strcmp : Str → Str → Int
  | [], [] => 0
  | [], _ :: _ => -1
  | _ :: _, [] => 1
  | a :: as, b :: bs => if a = b then strcmp as bs else if a.toNat < b.toNat then -1 else 1

/-- libc `isspace` in the C locale. -/
def isSpaceC (c : Char) : Bool :=
  c == ' ' || c == '\t' || c == '\n' || c == '\x0b' || c == '\x0c' || c == '\r'

/-- util.c:41-48 `ends_with`: both lengths are passed as `strlen` of the strings. -/
def endsWith (str suffix : Str) : Bool :=
  if str.length < suffix.length then false
  else str.drop (str.length - suffix.length) == suffix

/-- util.c:50-59 `trim_right`. -/
def trimRight (s : Str) : Str :=
  (s.reverse.dropWhile isSpaceC).reverse

/-- libc `strstr(hay, needle) != NULL`. -/
def strstr (needle : Str) : Str → Bool
  | [] => needle.isPrefixOf []
  | h :: hs => needle.isPrefixOf (h :: hs) || strstr needle hs

/-- libc `strrchr(s, c)`: the suffix starting at the last occurrence. -/
def strrchr (c : Char) : Str → Option Str
  | [] => none
  | h :: hs =>
    match strrchr c hs with
    | some r => some r
    | none => if h = c then some (h :: hs) else none

/-- libc `strchr(s, c)` for `c ≠ NUL`: the suffix starting at the first occurrence. -/
def strchr (c : Char) : Str → Option Str
  | [] => none
  | h :: hs => if h = c then some (h :: hs) else strchr c hs

/-- `%d`/`%u` formatting. -/
def natToStr (n : Nat) : Str := Nat.toDigits 10 n

/-- The C library's `strtok`-style cut: `(before, after)` at the first occurrence of `c`,
the character itself removed; `none` if it does not occur. -/
def cutAt (c : Char) : Str → Option (Str × Str)
  | [] => none
  | h :: hs =>
    if h = c then some ([], hs)
    else match cutAt c hs with
      | some (a, b) => some (h :: a, b)
      | none => none

/-- string_list.c:22-36 `str_in_sl`. A `struct string_list *` is the list of its strings;
NULL is the empty list. (`has_incorrect_space`, only used for call arguments, is modelled
in `IfCallData`.) -/
def strInSl (str : Str) : List Str → Bool
  | [] => false
  | s :: sl => if strcmp s str = 0 then true else strInSl str sl

/-- string_list.c:105-122 `concat_string_lists`. -/
def concatStringLists (head tail : List Str) : List Str := head ++ tail

end Selint
