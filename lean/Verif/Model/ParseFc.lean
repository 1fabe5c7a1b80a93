import Verif.Model.Tree
import Verif.Model.CBuf
/-!
# Parsing file context files (parse_fc.c)

`parse_fc_line` tokenises the line buffer in place; it is modelled byte by byte. Memory
allocation never fails, and `int i` is taken to be unbounded (a line is shorter than 2^31
bytes).
-/

namespace Selint

/-- parse_fc.c:29 `whitespace`. -/
def fcWs (c : Char) : Bool := c = ' ' || c = '\t'

/-- `strdup` of (or any other complete read of) the C string at `i`. -/
def LineBytes.cstr (b : LineBytes) (i : Nat) : Res Str := b.str (b.length + 1) i

/-- `strcpy(b + i, s)`. -/
def LineBytes.strcpy (b : LineBytes) (i : Nat) : Str → Res LineBytes
  | [] => b.wr i '\x00'
  | c :: s => do
    let b ← b.wr i c
    LineBytes.strcpy b (i + 1) s

/-- parse_fc.c:171-200: the remaining parts of a context, the first `strtok` call starting
at `i`. The buffer is returned because the caller goes on to use it. -/
def contextParts (b : LineBytes) (i : Nat) : Res (LineBytes × Option SelContext) := do
  let (b, i, user) ← strtokB (fun c => c = ':') b i
  match user with
  | none => pure (b, none)
  | some u => do
    let user ← b.cstr u
    let (b, i, role) ← strtokB (fun c => c = ':') b i
    match role with
    | none => pure (b, none)
    | some r => do
      let role ← b.cstr r
      let (b, i, type) ← strtokB (fun c => c = ':') b i
      match type with
      | none => pure (b, none)
      | some t => do
        let type ← b.cstr t
        let (b, i, range) ← strtokB (fun c => c = ':') b i
        match range with
        | none => pure (b, some ⟨false, user, role, type, none⟩)
        | some m => do
          let range ← b.cstr m
          let (b, _, extra) ← strtokB (fun c => c = ':') b i
          match extra with
          | none => pure (b, some ⟨false, user, role, type, some range⟩)
          | some _ => pure (b, none)

/-- parse_fc.c:158-208 `parse_context`. (`has_gen_context` is 0 by the `memset`.) -/
def parseContext (b : LineBytes) (i : Nat) : Res (LineBytes × Option SelContext) := do
  if '(' ∈ (← b.cstr i) then pure (b, none)
  else contextParts b i

/-- `while (p[i] != '\0' && p[i] != ')') i++`: the loops of parse_fc.c:78-80, 94-96 and
105-107. The result is the index relative to `p`. -/
def scanParen (b : LineBytes) (p i : Nat) : Res Nat := do
  let e ← scanWhile (fun c => c ≠ '\x00' && c ≠ ')') b (b.length + 1) (p + i)
  pure (e - p)

/-- parse_fc.c:88-92 and 113-117: `while (p[0] != '\0' && (p[0] == ' ' || …)) p++`. -/
def trimStart (b : LineBytes) (p : Nat) : Res Nat :=
  scanWhile (fun c => c ≠ '\x00' && fcWs c) b (b.length + 1) p

/-- parse_fc.c:120-137: parse the context and set the range. -/
def finishGen (b : LineBytes) (ctx : Nat) (s c : Option Nat) : Res (Option SelContext) := do
  let (b, context) ← parseContext b ctx
  match context with
  | none => pure none
  | some context =>
    match s, c with
    | some s, some c => do
      let s ← b.cstr s
      let c ← b.cstr c
      pure (some { context with hasGenContext := true, range := some (s ++ cs!":" ++ c) })
    | some s, none => do
      let s ← b.cstr s
      pure (some { context with hasGenContext := true, range := some s })
    | none, _ => pure (some { context with hasGenContext := true, range := none })

/-- parse_fc.c:104-118: the category part, `i` being left over from the scan of the level. -/
def finishCategory (b : LineBytes) (ctx : Nat) (s : Nat) (c i : Nat) :
    Res (Option SelContext) := do
  let i ← scanParen b c i
  if (← b.rd (c + i)) = '\x00' then pure none
  else do
    let b ← b.wr (c + i) '\x00'
    let c ← trimStart b c
    finishGen b ctx (some s) (some c)

/-- parse_fc.c:76-92, then 104-137: `maybe_s` at `s`. -/
def genWithLevel (b : LineBytes) (ctx s : Nat) (c : Option Nat) : Res (Option SelContext) := do
  let i ← scanParen b s 0
  let x ← b.rd (s + i)
  if x = '\x00' ∧ c = none then pure none
  else do
    let b ← b.wr (s + i) '\x00'
    let s ← trimStart b s
    match c with
    | none => finishGen b ctx (some s) none
    | some c => finishCategory b ctx s c i

/-- parse_fc.c:93-103, then 120-137: no level. -/
def genWithoutLevel (b : LineBytes) (ctx : Nat) : Res (Option SelContext) := do
  let i ← scanParen b ctx 0
  if (← b.rd (ctx + i)) = '\x00' then pure none
  else do
    let b ← b.wr (ctx + i) '\x00'
    finishGen b ctx none none

/-- parse_fc.c:65-137: what follows `gen_context(`, from position `i`. -/
def genContext (b : LineBytes) (i : Nat) : Res (Option SelContext) := do
  let (b, i, ctx) ← strtokB (fun c => c = ',') b i
  match ctx with
  | none => pure none
  | some ctx => do
    let (b, i, s) ← strtokB (fun c => c = ',') b i
    match s with
    | none => genWithoutLevel b ctx
    | some s => do
      let (b, _, c) ← strtokB (fun c => c = ',') b i
      genWithLevel b ctx s c

/-- The three kinds of contexts of a line; `bad` is `goto cleanup`. -/
inductive FcLabel where
  | bad
  | none
  | context (c : SelContext)
  deriving DecidableEq, Repr

/-- parse_fc.c:63-150: the context that starts at `i`. -/
def fcLabel (b : LineBytes) (i : Nat) : Res FcLabel := do
  let s ← b.cstr i
  if cs!"gen_context(" <+: s then do
    match ← genContext b (i + 12) with
    | none => pure .bad
    | some c => pure (.context c)
  else if s = cs!"<<none>>\n" ∨ s = cs!"<<none>>\r\n" then pure .none
  else do
    match ← parseContext b i with
    | (_, none) => pure .bad
    | (_, some c) => pure (.context c)

/-- parse_fc.c:60-155: restore the line and parse the context at `i`. -/
def fcFinish (b : LineBytes) (orig path : Str) (obj : Option Char) (i : Nat) :
    Res (Option FcEntry) := do
  let b ← b.strcpy 0 orig
  match ← fcLabel b i with
  | .bad => pure none
  | .none => pure (some ⟨path, obj, none⟩)
  | .context c => pure (some ⟨path, obj, some c⟩)

/-- A `char` member, `none` for NUL. -/
def charField (c : Char) : Option Char := if c = '\x00' then none else some c

/-- parse_fc.c:48-59: the second token is at `p`, `i` is the saved position. -/
def fcSecond (b : LineBytes) (orig path : Str) (p i : Nat) : Res (Option FcEntry) := do
  if (← b.rd p) = '-' then do
    if (← b.rd (p + 2)) ≠ '\x00' then pure none
    else do
      let obj ← b.rd (p + 1)
      let (b, _, tok) ← strtokB fcWs b i
      match tok with
      | none => pure none
      | some q => fcFinish b orig path (charField obj) q
  else fcFinish b orig path none p

/-- parse_fc.c:27-156 `parse_fc_line`. -/
def parseFcLine (b : LineBytes) : Res (Option FcEntry) := do
  let orig ← b.cstr 0
  let (b, i, tok) ← strtokB fcWs b 0
  match tok with
  | none => pure none
  | some p => do
    let path ← b.cstr p
    let (b, i, tok) ← strtokB fcWs b i
    match tok with
    | none => pure none
    | some p => fcSecond b orig path p i

/-- parse_fc.c:210-229 `check_for_fc_macro`. -/
def checkForFcMacro (line : Str) (macros : List Str) : Bool :=
  macros.any fun m =>
    decide (m.length < line.length) && line[m.length]? == some '(' && m.isPrefixOf line

/-- parse_fc.c:253-272: the lines that are skipped. `len` is what `getline` returned, `line`
the C string in its buffer. -/
def fcSkipped (len : Nat) (line : Str) (macros : List Str) : Bool :=
  decide (len ≤ 1) || line.head? == some '#' ||
  (cs!"ifdef").isPrefixOf line || (cs!"ifndef").isPrefixOf line || (cs!"')").isPrefixOf line ||
  (cs!"', `").isPrefixOf line || (cs!"',`").isPrefixOf line ||
  checkForFcMacro line macros

/-- A line of the file as `getline` delivers it: its text (up to the first NUL if the file has
NUL bytes), its length, and what the buffer holds behind the terminating NUL. -/
structure FcInput where
  text : Str
  len : Nat
  tail : LineBytes

/-- A node of the list `parse_fc_file` builds. -/
structure FcNode where
  data : NodeData
  lineno : Nat
  deriving DecidableEq, Repr

/-- parse_fc.c:274-289: the node of a line that is not skipped. -/
def fcNode (inp : FcInput) (lineno : Nat) : Res FcNode := do
  match ← parseFcLine (lineBuf inp.text inp.tail) with
  | none => pure ⟨.plain .error none, lineno⟩
  | some e => pure ⟨.fc e, lineno⟩

/-- parse_fc.c:251-292: the loop over the lines; `lineno` is the counter before the first of
them. The nodes are appended with `insert_policy_node_next`. -/
def parseFcLines (macros : List Str) : List FcInput → Nat → Res (List FcNode)
  | [], _ => pure []
  | inp :: rest, lineno => do
    if fcSkipped inp.len inp.text macros then parseFcLines macros rest (lineno + 1)
    else do
      let n ← fcNode inp (lineno + 1)
      let ns ← parseFcLines macros rest (lineno + 1)
      pure (n :: ns)

/-- parse_fc.c:231-296 `parse_fc_file`: `none` if the file cannot be opened. The head node has
line number 0. -/
def parseFcFile (macros : List Str) (file : Option (List FcInput)) : Res (Option (List FcNode)) :=
  match file with
  | none => pure none
  | some lines => do
    let ns ← parseFcLines macros lines 0
    pure (some (⟨.plain .fcFile none, 0⟩ :: ns))

end Selint
