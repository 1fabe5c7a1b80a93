import Verif.Model.ParseFc
import Verif.Model.ParseInMemory
/-!
# Reading file context files in memory (parse_fc.c)

`parse_fc_line` and `parse_fc_file` once more, this time with entries, contexts, strings and
nodes as allocated objects. The text of a line is in the buffer of `getline`, which is one
object (`raw`: its bytes are the `LineBytes` of `ParseFc.lean`). `malloc` and `strdup`
succeed.
-/

namespace Selint

namespace Mem

/-- `strdup` of the C string at position `i` of the line. -/
def dupAt (m : Mem) (b : LineBytes) (i : Nat) : Res (Addr × Mem) := do
  let s ← b.cstr i
  .ok (m.malloc (.bytes s))

/-- An assignment to a member of a `struct sel_context`. -/
def setCtx (m : Mem) (p : Addr) (f : CtxObj → CtxObj) : Res Mem := do
  let d ← m.get Obj.ctx? p
  m.write p (.ctx (f d))

/-- An assignment to a member of a `struct fc_entry`. -/
def setFc (m : Mem) (e : Addr) (f : FcObj → FcObj) : Res Mem := do
  let d ← m.get Obj.fc? e
  m.write e (.fc (f d))

/-- parse_fc.c:205-207: `cleanup: free_sel_context(context); return NULL;` -/
def dropCtx (m : Mem) (p : Addr) (b : LineBytes) : Res (LineBytes × Option Addr × Mem) := do
  let m ← m.freeSelContext p
  .ok (b, none, m)

/-- parse_fc.c:171-208: the parts of the context at `p`, the first `strtok` call starting at
`i` (`contextParts`). -/
def contextParts (m : Mem) (p : Addr) (b : LineBytes) (i : Nat) :
    Res (LineBytes × Option Addr × Mem) := do
  let (b, i, user) ← strtokB (fun c => c = ':') b i
  match user with
  | none => m.dropCtx p b
  | some u => do
    let (a, m) ← m.dupAt b u
    let m ← m.setCtx p (fun d => { d with user := some a })
    let (b, i, role) ← strtokB (fun c => c = ':') b i
    match role with
    | none => m.dropCtx p b
    | some r => do
      let (a, m) ← m.dupAt b r
      let m ← m.setCtx p (fun d => { d with role := some a })
      let (b, i, type) ← strtokB (fun c => c = ':') b i
      match type with
      | none => m.dropCtx p b
      | some t => do
        let (a, m) ← m.dupAt b t
        let m ← m.setCtx p (fun d => { d with type := some a })
        let (b, i, range) ← strtokB (fun c => c = ':') b i
        match range with
        | none => .ok (b, some p, m)
        | some r => do
          let (a, m) ← m.dupAt b r
          let m ← m.setCtx p (fun d => { d with range := some a })
          let (b, _, extra) ← strtokB (fun c => c = ':') b i
          match extra with
          | none => .ok (b, some p, m)
          | some _ => m.dropCtx p b

/-- parse_fc.c:158-208 `parse_context`. -/
def parseContext (m : Mem) (b : LineBytes) (i : Nat) :
    Res (LineBytes × Option Addr × Mem) := do
  if '(' ∈ (← b.cstr i) then .ok (b, none, m)
  else
    let (p, m) := m.malloc (.ctx ⟨false, none, none, none, none⟩)
    m.contextParts p b i

/-- parse_fc.c:120-137: parse the context of the entry at `e` and set the range. The range that
`parse_context` may have set is not freed. The flag says whether the line is good. -/
def finishGen (m : Mem) (e : Addr) (b : LineBytes) (ctx : Nat) (s c : Option Nat) :
    Res (Bool × Mem) := do
  let (b, p, m) ← m.parseContext b ctx
  let m ← m.setFc e (fun d => { d with context := p })
  match p with
  | none => .ok (false, m)
  | some p => do
    let m ← m.setCtx p (fun d => { d with hasGenContext := true })
    match s, c with
    | some s, some c => do
      let s ← b.cstr s
      let c ← b.cstr c
      let (a, m) := m.malloc (.bytes (s ++ cs!":" ++ c))
      let m ← m.setCtx p (fun d => { d with range := some a })
      .ok (true, m)
    | some s, none => do
      let (a, m) ← m.dupAt b s
      let m ← m.setCtx p (fun d => { d with range := some a })
      .ok (true, m)
    | none, _ => do
      let m ← m.setCtx p (fun d => { d with range := none })
      .ok (true, m)

/-- parse_fc.c:104-118: the category part (`finishCategory`). -/
def finishCategory (m : Mem) (e : Addr) (b : LineBytes) (ctx s c i : Nat) :
    Res (Bool × Mem) := do
  let i ← scanParen b c i
  if (← b.rd (c + i)) = '\x00' then .ok (false, m)
  else do
    let b ← b.wr (c + i) '\x00'
    let c ← trimStart b c
    m.finishGen e b ctx (some s) (some c)

/-- parse_fc.c:76-92, then 104-137 (`genWithLevel`). -/
def genWithLevel (m : Mem) (e : Addr) (b : LineBytes) (ctx s : Nat) (c : Option Nat) :
    Res (Bool × Mem) := do
  let i ← scanParen b s 0
  let x ← b.rd (s + i)
  if x = '\x00' ∧ c = none then .ok (false, m)
  else do
    let b ← b.wr (s + i) '\x00'
    let s ← trimStart b s
    match c with
    | none => m.finishGen e b ctx (some s) none
    | some c => m.finishCategory e b ctx s c i

/-- parse_fc.c:93-103, then 120-137 (`genWithoutLevel`). -/
def genWithoutLevel (m : Mem) (e : Addr) (b : LineBytes) (ctx : Nat) : Res (Bool × Mem) := do
  let i ← scanParen b ctx 0
  if (← b.rd (ctx + i)) = '\x00' then .ok (false, m)
  else do
    let b ← b.wr (ctx + i) '\x00'
    m.finishGen e b ctx none none

/-- parse_fc.c:65-137: what follows `gen_context(` (`genContext`). -/
def genContext (m : Mem) (e : Addr) (b : LineBytes) (i : Nat) : Res (Bool × Mem) := do
  let (b, i, ctx) ← strtokB (fun c => c = ',') b i
  match ctx with
  | none => .ok (false, m)
  | some ctx => do
    let (b, i, s) ← strtokB (fun c => c = ',') b i
    match s with
    | none => m.genWithoutLevel e b ctx
    | some s => do
      let (b, _, c) ← strtokB (fun c => c = ',') b i
      m.genWithLevel e b ctx s c

/-- parse_fc.c:63-150: the context that starts at `i` (`fcLabel`). -/
def fcLabel (m : Mem) (e : Addr) (b : LineBytes) (i : Nat) : Res (Bool × Mem) := do
  let s ← b.cstr i
  if cs!"gen_context(" <+: s then m.genContext e b (i + 12)
  else if s = cs!"<<none>>\n" ∨ s = cs!"<<none>>\r\n" then do
    let m ← m.setFc e (fun d => { d with context := none })
    .ok (true, m)
  else do
    let (_, p, m) ← m.parseContext b i
    let m ← m.setFc e (fun d => { d with context := p })
    match p with
    | none => .ok (false, m)
    | some p => do
      let m ← m.setCtx p (fun d => { d with hasGenContext := false })
      .ok (true, m)

/-- parse_fc.c:60-150: restore the line from the copy at `orig` and parse the context
(`fcFinish`). -/
def fcFinish (m : Mem) (e orig : Addr) (b : LineBytes) (i : Nat) : Res (Bool × Mem) := do
  let s ← m.get Obj.str? orig
  let b ← b.strcpy 0 s
  m.fcLabel e b i

/-- parse_fc.c:48-150: the second token is at `p` (`fcSecond`). -/
def fcSecond (m : Mem) (e orig : Addr) (b : LineBytes) (p i : Nat) : Res (Bool × Mem) := do
  if (← b.rd p) = '-' then do
    if (← b.rd (p + 2)) ≠ '\x00' then .ok (false, m)
    else do
      let obj ← b.rd (p + 1)
      let m ← m.setFc e (fun d => { d with obj := charField obj })
      let (b, _, tok) ← strtokB fcWs b i
      match tok with
      | none => .ok (false, m)
      | some q => m.fcFinish e orig b q
  else m.fcFinish e orig b p

/-- parse_fc.c:34-150: fill the entry at `e`; the copy of the line is at `orig`. -/
def fcBody (m : Mem) (e orig : Addr) (b : LineBytes) : Res (Bool × Mem) := do
  let (b, i, tok) ← strtokB fcWs b 0
  match tok with
  | none => .ok (false, m)
  | some p => do
    let (a, m) ← m.dupAt b p
    let m ← m.setFc e (fun d => { d with path := some a })
    let (b, i, tok) ← strtokB fcWs b i
    match tok with
    | none => .ok (false, m)
    | some p => m.fcSecond e orig b p i

/-- parse_fc.c:27-156 `parse_fc_line`; the result is NULL for a bad line. -/
def parseFcLine (m : Mem) (b : LineBytes) : Res (Option Addr × Mem) := do
  let (e, m) := m.malloc (.fc ⟨none, none, none⟩)
  let (orig, m) ← m.dupAt b 0
  let (good, m) ← m.fcBody e orig b
  let m ← m.free (some orig)
  if good then .ok (some e, m)
  else do
    let m ← m.freeFcEntry (some e)
    .ok (none, m)

/-- `getline(&line, …)`: a buffer is allocated if there is none. Simplification: a buffer that
is too small keeps its address. -/
def lineBuffer (m : Mem) : Option Addr → Addr × Mem
  | some l => (l, m)
  | none => m.malloc .raw

/-- parse_fc.c:251-292: the loop over the lines; `line` is the buffer, `cur` the last node. -/
def parseFcLines (macros : List Str) :
    List FcInput → Nat → Mem → (cur : Addr) → (line : Option Addr) → Res (Addr × Mem)
  | [], _, m, cur, line => do
    let (l, m) := m.lineBuffer line
    let m ← m.free (some l)
    .ok (cur, m)
  | inp :: rest, lineno, m, cur, line => do
    let (l, m) := m.lineBuffer line
    if fcSkipped inp.len inp.text macros then
      parseFcLines macros rest (lineno + 1) m cur (some l)
    else do
      let (entry, m) ← m.parseFcLine (lineBuf inp.text inp.tail)
      let m ← m.insertNext cur (if entry.isNone then .error else .fcEntry) entry (lineno + 1)
      let n ← m.get Obj.node? cur
      match n.next with
      | none => .ub
      | some q =>
        let m ← m.free (some l)
        parseFcLines macros rest (lineno + 1) m q none

/-- parse_fc.c:231-296 `parse_fc_file` for a file that can be opened: the first node, and the
last one. -/
def parseFcFile (macros : List Str) (lines : List FcInput) (m : Mem) :
    Res (Addr × Addr × Mem) := do
  let (head, m) := m.malloc (.node ⟨none, none, none, none, .fcFile, none, none, 0⟩)
  let (cur, m) ← parseFcLines macros lines 0 m head none
  .ok (head, cur, m)

end Mem

end Selint
