import Verif.Model.Template
import Verif.Model.MapsInMemory
/-!
# Template expansion on allocated memory (template.c)

The same functions as in `Verif.Model.Template`, with the lists of arguments, the list of
the enclosing templates' names and the symbol tables as objects in memory. Strings that are
only read are passed as the strings themselves. The contents of the block that `replace_m4`
fills are the matter of `Selint.replaceM4`; here the block holds its final string.
-/

namespace Selint.Mem

/-- template.c:31-34: `strlen` of every argument; one that is NULL is undefined behaviour. -/
def readArgs : Nat → Mem → Option Addr → Res (List Str)
  | _, _, none => .ok []
  | 0, _, some _ => .ub
  | fuel + 1, m, some p => do
    let c ← m.get Obj.sl? p
    let s ← m.getAt Obj.str? c.string
    let l ← readArgs fuel m c.next
    .ok (s :: l)

/-- template.c:26-73 `replace_m4`: the block is allocated (37) and freed again when a `$` is
not followed by a number (57). -/
def replaceM4 (m : Mem) (orig : Str) (args : Option Addr) : Res (Option Addr × Mem) := do
  let as ← readArgs m.top m args
  let r ← Selint.replaceM4 orig as
  match r with
  | some s =>
    let (a, m) := m.malloc (.bytes s)
    .ok (some a, m)
  | none =>
    let (a, m) := m.malloc (.bytes [])
    let m ← m.free (some a)
    .ok (none, m)

/-- template.c:85-91, the loop of `replace_m4_list`. -/
def replaceM4Rest : Nat → Mem → (cur : Addr) → (repl frm : Option Addr) → Res Mem
  | _, m, _, _, none => .ok m
  | 0, _, _, _, some _ => .ub
  | fuel + 1, m, cur, repl, some p => do
    let (n, m) := m.malloc (.sl ⟨none, none, false⟩)
    let c ← m.get Obj.sl? cur
    let m ← m.write cur (.sl { c with next := some n })
    let f ← m.get Obj.sl? p
    let s ← m.getAt Obj.str? f.string
    let (r, m) ← m.replaceM4 s repl
    let m ← m.write n (.sl ⟨r, none, false⟩)
    replaceM4Rest fuel m n repl f.next

/-- template.c:75-93 `replace_m4_list`. -/
def replaceM4List (m : Mem) (repl frm : Option Addr) : Res (Addr × Mem) := do
  let (ret, m) := m.malloc (.sl ⟨none, none, false⟩)
  let f ← m.getAt Obj.sl? frm
  let s ← m.getAt Obj.str? f.string
  let (r, m) ← m.replaceM4 s repl
  let m ← m.write ret (.sl ⟨r, none, false⟩)
  let m ← replaceM4Rest m.top m ret repl f.next
  .ok (ret, m)

/-- template.c:102-109: is the template among the enclosing ones? -/
def isEnclosing : Nat → Mem → Str → Option Addr → Res Bool
  | _, _, _, none => .ok false
  | 0, _, _, some _ => .ub
  | fuel + 1, m, name, some p => do
    let c ← m.get Obj.sl? p
    let s ← m.getAt Obj.str? c.string
    if strcmp s name = 0 then .ok true else isEnclosing fuel m name c.next

/-- template.c:133-145: the loop over the declarations of a template, up to the point where
either way `cur` is freed (138-139, 146-147). -/
def expandDecls (mod : Str) (args : Option Addr) :
    Nat → (decls : Option Addr) → Mem → Tables → Res (SelintError × Mem × Tables)
  | _, none, m, t => .ok (.success, m, t)
  | 0, some _, _, _ => .ub
  | fuel + 1, some p, m, t => do
    let c ← m.get Obj.cell? p
    let d ← m.getAt Obj.decl? c.elem
    let s ← m.getAt Obj.str? d.name
    let (r, m) ← m.replaceM4 s args
    match r with
    | none => .ok (.m4SubFailure, m, t)
    | some a =>
      let n ← m.get Obj.str? a
      let (m, t) ← m.insertStr t (declStrTable d.flavor) n mod
      let m ← m.free (some a)
      let c ← m.get Obj.cell? p
      expandDecls mod args fuel c.next m t

/-- template.c:118-131: the loop over the calls made by a template; `rec` is the recursive
call. -/
def expandCalls (rec : Str → Option Addr → Mem → Tables → Res (SelintError × Mem × Tables))
    (args : Option Addr) :
    Nat → (calls : Option Addr) → Mem → Tables → Res (SelintError × Mem × Tables)
  | _, none, m, t => .ok (.success, m, t)
  | 0, some _, _, _ => .ub
  | fuel + 1, some p, m, t => do
    let c ← m.get Obj.cell? p
    let d ← m.getAt Obj.call? c.elem
    let (newArgs, m) ← m.replaceM4List args d.args
    let n ← m.getAt Obj.str? d.name
    let (e, m, t) ← rec n (some newArgs) m t
    let m ← freeStringList m.top m (some newArgs)
    if e ≠ .success then .ok (e, m, t)
    else
      let c ← m.get Obj.cell? p
      expandCalls rec args fuel c.next m t

/-- template.c:95-149 `add_template_declarations`; the first argument bounds the depth of the
recursion. When an enclosing template is called again, the list of the enclosing ones is freed
(105); when anything else goes wrong in a call, the cell `cur` is not (126-128). -/
def addTemplateDeclarations :
    Nat → Str → (args parents : Option Addr) → Str → Mem → Tables →
      Res (SelintError × Mem × Tables)
  | 0, _, _, _, _, _, _ => .ub
  | fuel + 1, name, args, parents, mod, m, t => do
    if ← isEnclosing m.top m name parents then
      let m ← freeStringList m.top m parents
      .ok (.ifCallLoop, m, t)
    else
      let (cur, m) := m.malloc (.sl ⟨none, none, false⟩)
      let (a, m) := m.malloc (.bytes name)
      let m ← m.write cur (.sl ⟨some a, parents, false⟩)
      let calls ← m.lookUpTemplateCalls t name
      let (e, m, t) ← expandCalls
        (fun n as m t => addTemplateDeclarations fuel n as (some cur) mod m t) args m.top calls m t
      if e ≠ .success then .ok (e, m, t)
      else
        let decls ← m.lookUpTemplateDecls t name
        let (e, m, t) ← expandDecls mod args m.top decls m t
        let c ← m.get Obj.sl? cur
        let m ← m.free c.string
        let m ← m.free (some cur)
        .ok (e, m, t)

/-- parse_functions.c:446: the call made by the parser, with the arguments of the call and no
enclosing templates. -/
def expandTemplate (m : Mem) (t : Tables) (name : Str) (args : Option Addr) (mod : Str) :
    Res (SelintError × Mem × Tables) :=
  addTemplateDeclarations (t.template.length + 2) name args none mod m t

end Selint.Mem
