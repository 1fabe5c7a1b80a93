import Verif.Model.Maps
import Verif.Model.Hooks
/-! # Template expansion (template.c) -/

namespace Selint

/-! ## Buffers -/

/-- One byte of a `malloc`ed block: never written, the terminator, or a character of a
string (C strings hold no NUL, so the last two cannot be confused). -/
inductive Cell where
  | junk
  | nul
  | ch (c : Char)
  deriving DecidableEq, Repr

/-- A `malloc`ed block. -/
abbrev Buf := List Cell

/-- Write a block of bytes at an offset; out of range is undefined behaviour. -/
def bufWrite (b : Buf) (pos : Nat) (s : List Cell) : Res Buf :=
  if pos + s.length ≤ b.length then .ok (b.take pos ++ s ++ b.drop (pos + s.length)) else .ub

/-- libc `strncpy` of exactly the bytes of `s`: no terminator is written. -/
def bufStrncpy (b : Buf) (pos : Nat) (s : Str) : Res Buf := bufWrite b pos (s.map .ch)

/-- libc `strcpy`: the string and its terminator. -/
def bufStrcpy (b : Buf) (pos : Nat) (s : Str) : Res Buf := bufWrite b pos (s.map .ch ++ [.nul])

/-- The C string that starts at the beginning of a block: reading an uninitialised byte or
past the end is undefined behaviour. -/
def bufString : Buf → Res Str
  | [] => .ub
  | .junk :: _ => .ub
  | .nul :: _ => .ok []
  | .ch c :: b =>
    match bufString b with
    | .ok s => .ok (c :: s)
    | .ub => .ub

/-! ## m4 substitution -/

/-- libc `isdigit`. -/
def isDigitC (c : Char) : Bool := (digitVal c).isSome

/-- `sscanf(s, "%d%n")` for a non-empty match: white space, optional sign, digits. Returns
the number and the rest of the input. Simplification: numbers do not overflow. -/
def scanInt (s : Str) : Option (Int × Str) :=
  let t := s.dropWhile isSpaceC
  let (neg, u) : Bool × Str :=
    match t with
    | '-' :: u => (true, u)
    | '+' :: u => (false, u)
    | u => (false, u)
  let ds := u.takeWhile isDigitC
  if ds.isEmpty then none
  else
    let v : Int := atoiDigits 0 ds
    some (if neg then -v else v, u.dropWhile isDigitC)

/-- template.c:61-65: walk down the argument list. -/
def m4Arg : List Str → Int → Option Str
  | [], _ => none
  | a :: as, n => if n > 1 then m4Arg as (n - 1) else some a

/-- template.c:41-71, the main loop: `orig` is the text at `orig_pos`, `pos` is
`ret_pos - ret`. `ok none` is the NULL return. The first argument bounds the number of
iterations; running out of it is reported as `ub`, so that any theorem that excludes `ub`
also shows that the bound is large enough. -/
def m4Loop (args : List Str) : Nat → Str → Buf → Nat → Res (Option Buf)
  | 0, _, _, _ => .ub
  | fuel + 1, orig, buf, pos =>
    if orig.isEmpty then .ok (some buf)
    else match cutAt '$' orig with
      | none =>
        match bufStrcpy buf pos orig with
        | .ub => .ub
        | .ok b => .ok (some b)
      | some (pre, rest) =>
        match bufStrncpy buf pos pre with
        | .ub => .ub
        | .ok b1 =>
          match scanInt rest with
          | none => .ok none
          | some (n, rest') =>
            match m4Arg args n with
            | none => m4Loop args fuel rest' b1 (pos + pre.length)
            | some a =>
              match bufStrcpy b1 (pos + pre.length) a with
              | .ub => .ub
              | .ok b2 => m4Loop args fuel rest' b2 (pos + pre.length + a.length)

/-- template.c:28-34: size of the block. -/
def m4BufSize (orig : Str) (args : List Str) : Nat := orig.length + 1 + (args.map List.length).sum

/-- template.c:37-38: `malloc` and `*ret = '\0'`. -/
def m4Init (size : Nat) : Buf := .nul :: List.replicate (size - 1) .junk

/-- template.c:26-73 `replace_m4`, with the returned buffer read as a string. -/
def replaceM4 (orig : Str) (args : List Str) : Res (Option Str) :=
  match m4Loop args (orig.length + 1) orig (m4Init (m4BufSize orig args)) 0 with
  | .ub => .ub
  | .ok none => .ok none
  | .ok (some b) =>
    match bufString b with
    | .ub => .ub
    | .ok s => .ok (some s)

/-- An argument list that may hold NULL strings (template.c:81, 88 store the result of
`replace_m4` unchecked); passing a NULL string on to `replace_m4` is undefined
(`strlen(NULL)`, template.c:32). -/
def allStrings : List (Option Str) → Res (List Str)
  | [] => .ok []
  | none :: _ => .ub
  | some s :: l =>
    match allStrings l with
    | .ub => .ub
    | .ok r => .ok (s :: r)

/-- template.c:75-93 `replace_m4_list`. A NULL `replace_from` is dereferenced
(template.c:81). -/
def replaceM4List (repl : List (Option Str)) (frm : List Str) : Res (List (Option Str)) :=
  match frm with
  | [] => .ub
  | _ =>
    match allStrings repl with
    | .ub => .ub
    | .ok args => go args frm
where
  /-- The loop of `replace_m4_list`. -/
  go (args : List Str) : List Str → Res (List (Option Str))
    | [] => .ok []
    | s :: rest =>
      match replaceM4 s args with
      | .ub => .ub
      | .ok r =>
        match go args rest with
        | .ub => .ub
        | .ok rs => .ok (r :: rs)

/-! ## Expansion -/

/-- Outcome of an expansion: the return value and the symbol tables, undefined behaviour, or
the model's recursion bound was reached. -/
inductive ExpRes where
  | done (e : SelintError) (m : Maps)
  | ub
  | fuel
  deriving DecidableEq, Repr

/-- template.c:133-145: the loop over the declarations of a template. -/
def expandDecls (mod : Str) (args : List (Option Str)) : List (DeclFlavor × Str) → Maps → ExpRes
  | [], m => .done .success m
  | (fl, d) :: rest, m =>
    match allStrings args with
    | .ub => .ub
    | .ok as =>
      match replaceM4 d as with
      | .ub => .ub
      | .ok none => .done .m4SubFailure m
      | .ok (some s) => expandDecls mod args rest (m.insertDecl s mod fl)

/-- template.c:115-131: the loop over the calls made by a template; `rec` is the recursive
call, with the enclosing templates and the module name already supplied. -/
def expandCalls (rec : Str → List (Option Str) → Maps → ExpRes) (args : List (Option Str)) :
    List IfCallData → Maps → ExpRes
  | [], m => .done .success m
  | c :: cs, m =>
    match replaceM4List args c.argStrs with
    | .ub => .ub
    | .ok newArgs =>
      match rec c.name newArgs m with
      | .done .success m' => expandCalls rec args cs m'
      | r => r

/-- template.c:95-149 `add_template_declarations`. `m` holds the declaration tables being
filled and the template table, which does not change during the expansion. The first
argument bounds the depth of the recursion. -/
def addTemplateDeclarations : Nat → Str → List (Option Str) → List Str → Str → Maps → ExpRes
  | 0, _, _, _, _, _ => .fuel
  | fuel + 1, name, args, parents, mod, m =>
    if strInSl name parents then .done .ifCallLoop m
    else
      match expandCalls (fun n a m' => addTemplateDeclarations fuel n a (name :: parents) mod m')
          args (m.templateCalls name) m with
      | .done .success m' => expandDecls mod args (m.templateDecls name) m'
      | r => r

/-- The call made by the parser (parse_functions.c:446): no enclosing templates. One more
than the number of templates is deep enough (`C18_terminates`). -/
def expandTemplate (name : Str) (args : List Str) (mod : Str) (m : Maps) : ExpRes :=
  addTemplateDeclarations (m.template.length + 2) name (args.map some) [] mod m

end Selint
