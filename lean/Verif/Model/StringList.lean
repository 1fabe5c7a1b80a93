import Verif.Model.Memory
/-!
# Lists of strings in memory (string_list.c)

A `const char *` argument that is only read is the string itself; a string that changes
hands is its address. Loops are bounded by their first argument; a loop that does not end
within the bound is `ub`.
-/

namespace Selint

namespace Mem

/-- string_list.c:22-36 `str_in_sl`. -/
def strInSl : Nat → Mem → Str → Option Addr → Res Bool
  | _, _, _, none => .ok false
  | 0, _, _, some _ => .ub
  | fuel + 1, m, str, some p => do
    let c ← m.get Obj.sl? p
    let s ← m.getAt Obj.str? c.string
    if strcmp s str = 0 then .ok true else strInSl fuel m str c.next

/-- string_list.c:46-57, the loop of `copy_string_list`: `cur` is the address of the
allocated cell that is to become the copy of the one at `sl`. -/
def copyLoop : Nat → Mem → (sl cur : Addr) → Res Mem
  | 0, _, _, _ => .ub
  | fuel + 1, m, sl, cur => do
    let c ← m.get Obj.sl? sl
    let s ← m.getAt Obj.str? c.string
    let (d, m) := m.malloc (.bytes s)
    match c.next with
    | none => m.write cur (.sl ⟨some d, none, c.space⟩)
    | some n =>
      let (q, m) := m.malloc .raw
      let m ← m.write cur (.sl ⟨some d, some q, c.space⟩)
      copyLoop fuel m n q

/-- string_list.c:38-59 `copy_string_list`. -/
def copyStringList (fuel : Nat) (m : Mem) : Option Addr → Res (Option Addr × Mem)
  | none => .ok (none, m)
  | some sl => do
    let (ret, m) := m.malloc .raw
    let m ← copyLoop fuel m sl ret
    .ok (some ret, m)

/-- string_list.c:81-89 `sl_from_str_consume`: the new cell takes over the string. -/
def slFromStrConsume (m : Mem) (string : Option Addr) : Addr × Mem :=
  m.malloc (.sl ⟨string, none, false⟩)

/-- string_list.c:61-69 `sl_from_str`. -/
def slFromStr (m : Mem) (string : Str) : Addr × Mem :=
  let (d, m) := m.malloc (.bytes string)
  m.malloc (.sl ⟨some d, none, false⟩)

/-- string_list.c:71-79 `sl_from_strn`; `strndup` copies at most `len` characters. -/
def slFromStrn (m : Mem) (string : Str) (len : Nat) : Addr × Mem :=
  let (d, m) := m.malloc (.bytes (string.take len))
  m.malloc (.sl ⟨some d, none, false⟩)

/-- string_list.c:116-118 and 130-132: `while (cur->next) cur = cur->next;`. -/
def lastCell : Nat → Mem → Addr → Res Addr
  | 0, _, _ => .ub
  | fuel + 1, m, cur => do
    let c ← m.get Obj.sl? cur
    match c.next with
    | none => .ok cur
    | some n => lastCell fuel m n

/-- The assignment `cur->next = n`. -/
def setNext (m : Mem) (cur : Addr) (n : Option Addr) : Res Mem := do
  let c ← m.get Obj.sl? cur
  m.write cur (.sl { c with next := n })

/-- string_list.c:105-122 `concat_string_lists`. -/
def concatStringLists (fuel : Nat) (m : Mem) : (head tail : Option Addr) → Res (Option Addr × Mem)
  | none, tail => .ok (tail, m)
  | some h, none => .ok (some h, m)
  | some h, some t => do
    let cur ← lastCell fuel m h
    let m ← m.setNext cur (some t)
    .ok (some h, m)

/-- string_list.c:91-103 `sl_from_strs`. -/
def slFromStrs (fuel : Nat) (m : Mem) (ret : Option Addr) : List Str → Res (Option Addr × Mem)
  | [] => .ok (ret, m)
  | s :: ss => do
    let (q, m) := m.slFromStr s
    let (ret, m) ← concatStringLists fuel m ret (some q)
    slFromStrs fuel m ret ss

/-- string_list.c:124-137 `append_to_sl`. -/
def appendToSl (fuel : Nat) (m : Mem) (sl : Option Addr) (string : Str) :
    Res (SelintError × Mem) :=
  match sl with
  | none => .ok (.badArg, m)
  | some p => do
    let cur ← lastCell fuel m p
    let (q, m) := m.slFromStr string
    let m ← m.setNext cur (some q)
    .ok (.success, m)

/-- string_list.c:139-152 `free_string_list`. -/
def freeStringList : Nat → Mem → Option Addr → Res Mem
  | _, m, none => .ok m
  | 0, _, some _ => .ub
  | fuel + 1, m, some p => do
    let c ← m.get Obj.sl? p
    let m ← m.free c.string
    let m ← m.free (some p)
    freeStringList fuel m c.next

end Mem

end Selint
