import Verif.Model.Free
import Verif.Model.ParseFunctions
/-!
# The parser's actions in memory (parse.y, parse_functions.c, tree.c)

The actions once more, this time with every string, list, structure and node as an allocated
object: who allocates, who takes over and who frees. `strdup` and `malloc` succeed.

Simplifications: a token's string is allocated (lex.l:152-179) just before the first action
that can use it, and the strings of a structure before the structure; since addresses mean
nothing to the program only the order of the addresses differs. The symbol tables are not in
memory: `insert_into_…_map` copies the names it is given, except for the list of permissions
of a macro, which it keeps (`Sptables` below), and for the calls of templates, where the table
keeps a pointer to data that belongs to the tree (`C81_calls`). The temporary lists of
`add_template_declarations` are not part of the model. A loop over a list or over the parents
of a node that takes more steps than addresses were handed out is `ub`.
-/

namespace Selint

namespace Mem

/-! ## Words and lists of words -/

/-- Two strings are replaced by one: parse.y:744-747, 755-758, 764-767. -/
def joinStrings (m : Mem) (sep : Char) (a b : Addr) : Res (Addr × Mem) := do
  let s ← m.get Obj.str? a
  let t ← m.get Obj.str? b
  let (c, m) := m.malloc (.bytes (s ++ sep :: t))
  let m ← m.free (some a)
  let m ← m.free (some b)
  .ok (c, m)

/-- A token whose string is freed at once, e.g. parse.y:259-262, 666-667, 688-689. -/
def dropToken (m : Mem) (s : Str) : Res Mem :=
  let (a, m) := m.malloc (.bytes s)
  m.free (some a)

/-- parse.y:434, 460, 478: `$$ = concat_string_lists($1, sl_from_str($2)); free($2);` -/
def appendWord (m : Mem) (l : Option Addr) (w : Addr) : Res (Option Addr × Mem) := do
  let s ← m.get Obj.str? w
  let (q, m) := m.slFromStr s
  let (l, m) ← m.concatStringLists m.top l (some q)
  let m ← m.free (some w)
  .ok (l, m)

/-- parse.y:434, 460, 478: the words after the first. -/
def appendWords {ι : Type} (build : ι → Mem → Res (Addr × Mem)) :
    List ι → Mem → Option Addr → Res (Option Addr × Mem)
  | [], m, l => .ok (l, m)
  | i :: is, m, l => do
    let (w, m) ← build i m
    let (l, m) ← m.appendWord l w
    appendWords build is m l

/-- parse.y:433-437 `xperm_items`, 459-463 `strings`, 477-481 `comma_string_list`. -/
def buildWords {ι : Type} (build : ι → Mem → Res (Addr × Mem)) (first : ι) (rest : List ι)
    (m : Mem) : Res (Option Addr × Mem) := do
  let (w, m) ← build first m
  let (p, m) := m.slFromStrConsume (some w)
  appendWords build rest m (some p)

/-- parse.y:428, 452: `$$ = sl_from_str("~"); $$->next = $2;` -/
def putTilda (m : Mem) (l : Option Addr) : Res (Option Addr × Mem) := do
  let (q, m) := m.slFromStr cs!"~"
  let m ← m.setNext q l
  .ok (some q, m)

end Mem

/-- lex.l:152-158, 179: a token with a string. -/
def buildToken (s : Str) (m : Mem) : Res (Addr × Mem) := .ok (m.malloc (.bytes s))

/-- parse.y:465-475 `sl_item`. -/
def SlItem.build : SlItem → Mem → Res (Addr × Mem)
  | .word s, m => .ok (m.malloc (.bytes s))
  | .minus s, m => do
    let (a, m) := m.malloc (.bytes s)
    let t ← m.get Obj.str? a
    let (b, m) := m.malloc (.bytes ('-' :: t))
    let m ← m.free (some a)
    .ok (b, m)
  | .quoted s, m => .ok (m.malloc (.bytes s))

/-- parse.y:449-457 `string_list`. -/
def SList.build : SList → Mem → Res (Option Addr × Mem)
  | .braces first rest, m => Mem.buildWords SlItem.build first rest m
  | .tilda l, m => do
    let (p, m) ← l.build m
    m.putTilda p
  | .item i, m => do
    let (w, m) ← i.build m
    let (p, m) := m.slFromStrConsume (some w)
    .ok (some p, m)
  | .star, m =>
    let (p, m) := m.slFromStr cs!"*"
    .ok (some p, m)

/-- parse.y:439-447 `xperm_item`. -/
def XItem.build : XItem → Mem → Res (Addr × Mem)
  | .word s, m => .ok (m.malloc (.bytes s))
  | .numString s, m => .ok (m.malloc (.bytes s))
  | .number s, m => .ok (m.malloc (.bytes s))
  | .dash, m => .ok (m.malloc (.bytes cs!"-"))

/-- parse.y:425-431 `xperm_list`. -/
def XList.build : XList → Mem → Res (Option Addr × Mem)
  | .braces first rest, m => Mem.buildWords XItem.build first rest m
  | .tilda l, m => do
    let (p, m) ← l.build m
    m.putTilda p
  | .item i, m => do
    let (w, m) ← i.build m
    let (p, m) := m.slFromStrConsume (some w)
    .ok (some p, m)

/-- parse.y:477-481 `comma_string_list`. -/
def CommaList.build (l : CommaList) (m : Mem) : Res (Option Addr × Mem) :=
  Mem.buildWords buildToken l.first l.rest m

/-- parse.y:722-730 `arg`. -/
def Arg.build : Arg → Mem → Res (Option Addr × Mem)
  | .xperm l, m => l.build m
  | .quoted s, m =>
    let (w, m) := m.malloc (.bytes s)
    let (p, m) := m.slFromStrConsume (some w)
    .ok (some p, m)
  | .words first rest, m => Mem.buildWords SlItem.build first rest m
  | .empty, m =>
    let (p, m) := m.slFromStr []
    .ok (some p, m)

/-- parse.y:735-740: what follows in `args`. -/
def ArgCont.append (c : ArgCont) (m : Mem) (l : Option Addr) : Res (Option Addr × Mem) :=
  match c with
  | .comma a => do
    let (p, m) ← a.build m
    m.concatStringLists m.top l p
  | .space i => do
    let (w, m) ← i.build m
    let (p, m) := m.malloc (.sl ⟨some w, none, true⟩)
    m.concatStringLists m.top l (some p)

/-- parse.y:735-740, repeatedly. -/
def appendArgs : List ArgCont → Mem → Option Addr → Res (Option Addr × Mem)
  | [], m, l => .ok (l, m)
  | c :: cs, m, l => do
    let (l, m) ← c.append m l
    appendArgs cs m l

/-- parse.y:732-741 `args`. -/
def Args.build (a : Args) (m : Mem) : Res (Option Addr × Mem) := do
  let (p, m) ← a.first.build m
  appendArgs a.rest m p

/-- parse.y:506-512: the arguments of a call, or NULL. -/
def buildArgs : Option Args → Mem → Res (Option Addr × Mem)
  | none, m => .ok (none, m)
  | some a, m => a.build m

/-- parse.y:761-768 `mls_component`. -/
def MlsComponent.build : MlsComponent → Mem → Res (Addr × Mem)
  | .one s, m => do
    let (a, m) := m.malloc (.bytes s)
    let t ← m.get Obj.str? a
    let (b, m) := m.malloc (.bytes t)
    let m ← m.free (some a)
    .ok (b, m)
  | .dotted s t, m =>
    let (a, m) := m.malloc (.bytes s)
    let (b, m) := m.malloc (.bytes t)
    m.joinStrings '.' a b

/-- parse.y:752-759 `mls_level`. -/
def MlsLevel.build : MlsLevel → Mem → Res (Addr × Mem)
  | .one c, m => c.build m
  | .pair c d, m => do
    let (a, m) ← c.build m
    let (b, m) ← d.build m
    m.joinStrings ':' a b

/-- parse.y:743-750 `mls_range`. -/
def MlsRange.build : MlsRange → Mem → Res (Addr × Mem)
  | .one l, m => l.build m
  | .range l k, m => do
    let (a, m) ← l.build m
    let (b, m) ← k.build m
    m.joinStrings '-' a b

/-! ## Productions that leave nothing behind -/

/-- parse.y:889-895: `free($5)` after `mls_range`. -/
def MlsRange.run (r : MlsRange) (m : Mem) : Res Mem := do
  let (a, m) ← r.build m
  m.free (some a)

/-- parse.y:898-902 `raw_context`. -/
def RawContext.run (c : RawContext) (m : Mem) : Res Mem := do
  let (a, m) := m.malloc (.bytes c.user)
  let (b, m) := m.malloc (.bytes c.role)
  let (d, m) := m.malloc (.bytes c.type)
  match c.range with
  | none =>
    let m ← m.free (some a)
    let m ← m.free (some b)
    m.free (some d)
  | some r =>
    let (e, m) ← r.build m
    let m ← m.free (some a)
    let m ← m.free (some b)
    let m ← m.free (some d)
    m.free (some e)

/-- parse.y:886-896 `context`. -/
def Context.run : Context → Mem → Res Mem
  | .raw c, m => c.run m
  | .gen c, m => c.run m
  | .gen1 c r, m => do r.run (← c.run m)
  | .gen2 c r s, m => do
    let m ← c.run m
    let (a, m) ← r.build m
    let (b, m) ← s.build m
    let m ← m.free (some a)
    m.free (some b)
  | .gen3 c r, m => do r.run (← c.run m)

/-- parse.y:688-704 `condition`. -/
def Condition.run : Condition → Mem → Res Mem
  | .name s, m => m.dropToken s
  | .not c, m => c.run m
  | .and c d, m => do d.run (← c.run m)
  | .or c d, m => do d.run (← c.run m)
  | .xor c d, m => do d.run (← c.run m)
  | .equal c d, m => do d.run (← c.run m)
  | .notEqual c d, m => do d.run (← c.run m)
  | .paren c, m => c.run m

/-- parse.y:666-686 `m4_string_elem`. -/
def M4Elem.run : M4Elem → Mem → Res Mem
  | .word s, m => m.dropToken s
  | .punct _ _, m => .ok m

/-- parse.y:658-664 `arbitrary_m4_string`. -/
def M4String.run : M4String → Mem → Res Mem
  | .one e, m => e.run m
  | .more e s, m => do s.run (← e.run m)
  | .quoted e, m => e.run m

/-- parse.y:817-825 `port_range`. -/
def PortRange.run : PortRange → Mem → Res Mem
  | .numString s, m => m.dropToken s
  | .number s, m => m.dropToken s
  | .range s t, m => do
    let (a, m) := m.malloc (.bytes s)
    let (b, m) := m.malloc (.bytes t)
    let m ← m.free (some a)
    m.free (some b)

/-- parse.y:874-878 `maybe_string_comma`. -/
def buildMaybe : Option Str → Mem → Addr × Mem
  | some s, m => m.malloc (.bytes s)
  | none, m => m.malloc (.bytes [])

/-- parse.y:880-884: the third range of `gen_user`. -/
def buildOptRange : Option MlsRange → Mem → Res (Option Addr × Mem)
  | none, m => .ok (none, m)
  | some r, m => do
    let (a, m) ← r.build m
    .ok (some a, m)

/-- parse.y:797-847, 880-884, 908-910, 650-652 and `COMMENT`. -/
def Silent.run : Silent → Mem → Res Mem
  | .genfscon _ fs path _ c, m => do
    let (a, m) := m.malloc (.bytes fs)
    let (b, m) := m.malloc (.bytes path)
    let m ← c.run m
    let m ← m.free (some a)
    m.free (some b)
  | .sid s c, m => do
    let (a, m) := m.malloc (.bytes s)
    let m ← c.run m
    m.free (some a)
  | .portcon s r c, m => do
    let (a, m) := m.malloc (.bytes s)
    let m ← c.run (← r.run m)
    m.free (some a)
  | .netifcon s c d, m => do
    let (a, m) := m.malloc (.bytes s)
    let m ← d.run (← c.run m)
    m.free (some a)
  | .nodecon4 a b c, m => do
    let (a, m) := m.malloc (.bytes a)
    let (b, m) := m.malloc (.bytes b)
    let m ← m.free (some a)
    let m ← m.free (some b)
    c.run m
  | .nodecon6 a b c, m => do
    let (a, m) := m.malloc (.bytes a)
    let (b, m) := m.malloc (.bytes b)
    let m ← m.free (some a)
    let m ← m.free (some b)
    c.run m
  | .fsUse _ _ s c, m => do
    let (a, m) := m.malloc (.bytes s)
    let m ← c.run m
    m.free (some a)
  | .genUser u v first rest r s t, m => do
    let (a, m) := buildMaybe u m
    let (b, m) := buildMaybe v m
    let (l, m) ← Mem.buildWords SlItem.build first rest m
    let (c, m) ← r.build m
    let (d, m) ← s.build m
    let (e, m) ← buildOptRange t m
    let m ← m.free (some a)
    let m ← m.free (some b)
    let m ← Mem.freeStringList m.top m l
    let m ← m.free (some c)
    let m ← m.free (some d)
    m.free e
  | .typebounds s t, m => do
    let (a, m) := m.malloc (.bytes s)
    let (b, m) := m.malloc (.bytes t)
    let m ← m.free (some a)
    m.free (some b)
  | .refpolicywarn s, m => s.run m
  | .comment, m => .ok m

/-! ## The tree -/

namespace Mem

/-- tree.c:65-91 `insert_policy_node_next`. -/
def insertNext (m : Mem) (prev : Addr) (flavor : NodeFlavor) (data : Option Addr) (line : Nat) :
    Res Mem := do
  let p ← m.get Obj.node? prev
  let (q, m) := m.malloc (.node ⟨p.parent, none, some prev, none, flavor, data, none, line⟩)
  m.write prev (.node { p with next := some q })

/-- tree.c:53-55: `while (cur->next != NULL) cur = cur->next;`. -/
def lastNode : Nat → Mem → Addr → Res Addr
  | 0, _, _ => .ub
  | fuel + 1, m, cur => do
    let n ← m.get Obj.node? cur
    match n.next with
    | none => .ok cur
    | some q => lastNode fuel m q

/-- tree.c:24-63 `insert_policy_node_child`. -/
def insertChild (m : Mem) (parent : Addr) (flavor : NodeFlavor) (data : Option Addr)
    (line : Nat) : Res Mem := do
  let p ← m.get Obj.node? parent
  match p.firstChild with
  | none =>
    let (q, m) := m.malloc (.node ⟨some parent, none, none, none, flavor, data, none, line⟩)
    m.write parent (.node { p with firstChild := some q })
  | some c =>
    let last ← lastNode m.top m c
    let l ← m.get Obj.node? last
    let (q, m) := m.malloc (.node ⟨some parent, none, some last, none, flavor, data, none, line⟩)
    m.write last (.node { l with next := some q })

/-- A string that may be NULL. -/
def optStr (m : Mem) : Option Addr → Res (Option Str)
  | none => .ok none
  | some a => do .ok (some (← m.get Obj.str? a))

/-- tree.c:329-338 `is_in_require`. -/
def isInRequire : Nat → Mem → Addr → Res Bool
  | 0, _, _ => .ub
  | fuel + 1, m, cur => do
    let n ← m.get Obj.node? cur
    match n.parent with
    | none => .ok false
    | some up =>
      let u ← m.get Obj.node? up
      if u.flavor = .genReq ∨ u.flavor = .require then .ok true else isInRequire fuel m up

/-- tree.c:111-120 `get_name_if_in_template`. -/
def nameIfInTemplate : Nat → Mem → Addr → Res (Option Str)
  | 0, _, _ => .ub
  | fuel + 1, m, cur => do
    let n ← m.get Obj.node? cur
    match n.parent with
    | none => .ok none
    | some up =>
      let u ← m.get Obj.node? up
      if u.flavor = .tempDef then m.optStr u.data else nameIfInTemplate fuel m up

/-- `(*cur)->parent && (*cur)->parent->flavor == NODE_INTERFACE_DEF`, and then
`(*cur)->parent->data.str` (e.g. parse_functions.c:220-223). -/
def parentInterface (m : Mem) (cur : Addr) : Res (Option Str) := do
  let n ← m.get Obj.node? cur
  match n.parent with
  | none => .ok none
  | some up =>
    let u ← m.get Obj.node? up
    if u.flavor = .interfaceDef then m.optStr u.data else .ok none

/-- The strings of a list with their marks, as a function that reads the list sees them. -/
def readList : Nat → Mem → Option Addr → Res (List (Str × Bool))
  | _, _, none => .ok []
  | 0, _, some _ => .ub
  | fuel + 1, m, some p => do
    let c ← m.get Obj.sl? p
    let s ← m.getAt Obj.str? c.string
    let l ← readList fuel m c.next
    .ok ((s, c.space) :: l)

/-- parse_functions.c:738-757 `save_command`; the string that was there before is not
freed. -/
def saveCommand (m : Mem) (node comm : Addr) : Res Mem := do
  let c ← m.get Obj.str? comm
  match PState.commandExceptions c with
  | none => .ok m
  | some e =>
    let n ← m.get Obj.node? node
    let (a, m) := m.malloc (.bytes e)
    m.write node (.node { n with exceptions := some a })

end Mem

/-- The parser's variables: the memory, `cur` (parse.y), the symbol tables, `module_name`
and what the calls of `insert_interface_call` returned. -/
structure MState where
  mem : Mem
  cur : Addr
  maps : Maps
  module : Str
  rets : List SelintError

namespace MState

/-- `insert_policy_node_next(*cur, …); *cur = (*cur)->next;` -/
def addNext (ms : MState) (flavor : NodeFlavor) (data : Option Addr) (line : Nat) :
    Res MState := do
  let m ← ms.mem.insertNext ms.cur flavor data line
  let n ← m.get Obj.node? ms.cur
  match n.next with
  | none => .ub
  | some q => .ok { ms with mem := m, cur := q }

/-- `free(…)` of a string at the end of an action. -/
def free (ms : MState) (a : Addr) : Res MState := do
  .ok { ms with mem := (← ms.mem.free (some a)) }

/-- `free_string_list(…)` at the end of an action. -/
def freeList (ms : MState) (l : Option Addr) : Res MState := do
  .ok { ms with mem := (← Mem.freeStringList ms.mem.top ms.mem l) }

/-- A token: the scanner's `strdup`. -/
def token (ms : MState) (s : Str) : Addr × MState :=
  let (a, m) := ms.mem.malloc (.bytes s)
  (a, { ms with mem := m })

/-- A production that has a value and does not touch the parser's variables. -/
def value {α : Type} (ms : MState) (f : Mem → Res (α × Mem)) : Res (α × MState) := do
  let (a, m) ← f ms.mem
  .ok (a, { ms with mem := m })

/-- A production without a value that does not touch the parser's variables. -/
def quiet (ms : MState) (f : Mem → Res Mem) : Res MState := do
  .ok { ms with mem := (← f ms.mem) }

/-- parse_functions.c:29-56 `insert_header`. -/
def insertHeader (ms : MState) (name : Addr) (fl : HeaderFlavor) (line : Nat) : Res MState := do
  let s ← ms.mem.get Obj.str? name
  let (a, m) := ms.mem.malloc (.bytes s)
  let (d, m) := m.malloc (.header ⟨fl, some a⟩)
  { ms with mem := m }.addNext .header (some d) line

/-- parse_functions.c:71-83 `insert_comment`. -/
def insertComment (ms : MState) (line : Nat) : Res MState := ms.addNext .comment none line

/-- parse_functions.c:92-115: the table entries for a declaration. -/
def declareName (ms : MState) (fl : DeclFlavor) (name : Str) : Res MState := do
  if ← ms.mem.isInRequire ms.mem.top ms.cur then .ok ms
  else
    match ← ms.mem.nameIfInTemplate ms.mem.top ms.cur with
    | some t => .ok { ms with maps := ms.maps.insertTemplateDecl t fl name }
    | none =>
      if name.head? = some '$' then .ok ms
      else .ok { ms with maps := ms.maps.insertDecl name ms.module fl }

/-- parse_functions.c:85-142 `insert_declaration`; `module_name` is set (`parse_one_file`,
runner.c:37-40). -/
def insertDeclaration (ms : MState) (fl : DeclFlavor) (name : Addr) (attrs : Option Addr)
    (line : Nat) : Res MState := do
  let s ← ms.mem.get Obj.str? name
  let ms ← ms.declareName fl s
  let (a, m) := ms.mem.malloc (.bytes s)
  let (d, m) := m.malloc (.decl ⟨fl, some a, attrs⟩)
  { ms with mem := m }.addNext .decl (some d) line

/-- parse_functions.c:151-175: the loop of `insert_aliases`. -/
def aliasLoop (fl : DeclFlavor) (line : Nat) : Nat → MState → Option Addr → Res MState
  | _, ms, none => .ok ms
  | 0, _, some _ => .ub
  | fuel + 1, ms, some p => do
    let c ← ms.mem.get Obj.sl? p
    let s ← ms.mem.getAt Obj.str? c.string
    let maps :=
      match ← ms.mem.nameIfInTemplate ms.mem.top ms.cur with
      | some t => ms.maps.insertTemplateDecl t fl s
      | none => ms.maps.insertDecl s ms.module fl
    let (a, m) := ms.mem.malloc (.bytes s)
    let m ← m.insertChild ms.cur .alias (some a) line
    let c ← m.get Obj.sl? p
    aliasLoop fl line fuel { ms with mem := m, maps := maps } c.next

/-- parse_functions.c:144-180 `insert_aliases`. -/
def insertAliases (ms : MState) (aliases : Option Addr) (fl : DeclFlavor) (line : Nat) :
    Res MState := do
  let ms ← aliasLoop fl line ms.mem.top ms aliases
  ms.freeList aliases

/-- A node whose data is a copy of a string: parse_functions.c:182-199 `insert_type_alias`,
475-491 `insert_permissive_statement`. -/
def addString (ms : MState) (flavor : NodeFlavor) (s : Addr) (line : Nat) : Res MState := do
  let s ← ms.mem.get Obj.str? s
  let (a, m) := ms.mem.malloc (.bytes s)
  { ms with mem := m }.addNext flavor (some a) line

/-- parse_functions.c:201-237 `insert_av_rule`. -/
def insertAvRule (ms : MState) (d : AvObj) (line : Nat) : Res MState := do
  let (a, m) := ms.mem.malloc (.av d)
  let maps ←
    match ← m.parentInterface ms.cur with
    | none => .ok ms.maps
    | some i => do
      if ← m.strInSl m.top cs!"associate" d.perms then .ok (ms.maps.markTransform i)
      else .ok ms.maps
  { ms with mem := m, maps := maps }.addNext .avRule (some a) line

/-- parse_functions.c:239-273 `insert_xperm_av_rule`. -/
def insertXpermAvRule (ms : MState) (d : AvObj) (operation : Addr) (line : Nat) :
    Res MState := do
  let s ← ms.mem.get Obj.str? operation
  let (o, m) := ms.mem.malloc (.bytes s)
  let (a, m) := m.malloc (.xav ⟨d, some o⟩)
  { ms with mem := m }.addNext .xavRule (some a) line

/-- parse_functions.c:276-298 `insert_role_allow`. -/
def insertRoleAllow (ms : MState) (frm to : Option Addr) (line : Nat) : Res MState :=
  let (a, m) := ms.mem.malloc (.ra ⟨frm, to⟩)
  { ms with mem := m }.addNext .roleAllow (some a) line

/-- parse_functions.c:304-312: is one of the types a parameter? -/
def someParameter : Nat → Mem → Option Addr → Res Bool
  | _, _, none => .ok false
  | 0, _, some _ => .ub
  | fuel + 1, m, some p => do
    let c ← m.get Obj.sl? p
    let s ← m.getAt Obj.str? c.string
    if s.head? = some '$' then .ok true else someParameter fuel m c.next

/-- parse_functions.c:300-332 `insert_role_types`. -/
def insertRoleTypes (ms : MState) (role : Addr) (types : Option Addr) (line : Nat) :
    Res MState := do
  let maps ←
    match ← ms.mem.parentInterface ms.cur with
    | none => .ok ms.maps
    | some i => do
      if ← someParameter ms.mem.top ms.mem types then .ok (ms.maps.markRole i)
      else .ok ms.maps
  let s ← ms.mem.get Obj.str? role
  let (r, m) := ms.mem.malloc (.bytes s)
  let (a, m) := m.malloc (.rtyp ⟨some r, types⟩)
  { ms with mem := m, maps := maps }.addNext .roleTypes (some a) line

/-- A copy of a string, or NULL for NULL: parse_functions.c:350-354. -/
def copyOpt (m : Mem) : Option Addr → Res (Option Addr × Mem)
  | none => .ok (none, m)
  | some p => do
    let s ← m.get Obj.str? p
    let (a, m) := m.malloc (.bytes s)
    .ok (some a, m)

/-- parse_functions.c:334-378 `insert_type_transition`. -/
def insertTypeTransition (ms : MState) (fl : TtFlavor) (src tgt cls : Option Addr) (dflt : Addr)
    (name : Option Addr) (line : Nat) : Res MState := do
  let s ← ms.mem.get Obj.str? dflt
  let (d, m) := ms.mem.malloc (.bytes s)
  let (n, m) ← copyOpt m name
  let (a, m) := m.malloc (.tt ⟨src, tgt, cls, some d, n, fl⟩)
  let maps ←
    if ← m.strInSl m.top cs!"process" cls then .ok ms.maps
    else do
      match ← m.parentInterface ms.cur with
      | some i => .ok (ms.maps.markFiletrans i)
      | none => .ok ms.maps
  { ms with mem := m, maps := maps }.addNext .ttRule (some a) line

/-- parse_functions.c:380-411 `insert_role_transition`. -/
def insertRoleTransition (ms : MState) (src tgt cls : Option Addr) (dflt : Addr) (line : Nat) :
    Res MState := do
  let s ← ms.mem.get Obj.str? dflt
  let (d, m) := ms.mem.malloc (.bytes s)
  let (a, m) := m.malloc (.rt ⟨src, tgt, cls, some d⟩)
  { ms with mem := m }.addNext .rtRule (some a) line

/-- parse_functions.c:432-473 `insert_interface_call`. -/
def insertInterfaceCall (ms : MState) (name : Addr) (args : Option Addr) (line : Nat) :
    Res MState := do
  let s ← ms.mem.get Obj.str? name
  let (n, m) := ms.mem.malloc (.bytes s)
  let (d, m) := m.malloc (.call ⟨some n, args⟩)
  let l ← m.readList m.top args
  let r : ExpRes :=
    match ← m.nameIfInTemplate m.top ms.cur with
    | some t => .done .success (ms.maps.insertTemplateCall t ⟨s, l⟩)
    | none => expandTemplate s (IfCallData.argStrs ⟨s, l⟩) ms.module ms.maps
  match r with
  | .ub => .ub
  | .fuel => .ub
  | .done e maps =>
    if e = .success then do
      let maps ←
        if PState.isFiletransIfName s then do
          match ← m.parentInterface ms.cur with
          | some i => .ok (maps.markFiletrans i)
          | none => .ok maps
        else .ok maps
      { ms with mem := m, maps := maps, rets := ms.rets ++ [e] }.addNext .ifCall (some d) line
    else do
      let m ← m.freeIfCallData m.top (some d)
      .ok { ms with mem := m, maps := maps, rets := ms.rets ++ [e] }

/-- parse_functions.c:493-509 `insert_semicolon`. -/
def insertSemicolon (ms : MState) (line : Nat) : Res MState := ms.addNext .semicolon none line

/-- parse_functions.c:511-527 `insert_m4simplemacro`: the node takes over the string. -/
def insertM4SimpleMacro (ms : MState) (name : Addr) (line : Nat) : Res MState :=
  ms.addNext .m4SimpleMacro (some name) line

/-- parse_functions.c:529-555 `begin_block`. -/
def beginBlock (ms : MState) (flavor : NodeFlavor) (data : Option Addr) (line : Nat) :
    Res MState := do
  let ms ← ms.addNext flavor data line
  let m ← ms.mem.insertChild ms.cur .startBlock none line
  let n ← m.get Obj.node? ms.cur
  match n.firstChild with
  | none => .ub
  | some c => .ok { ms with mem := m, cur := c }

/-- parse_functions.c:557-567 `end_block`; the flag says whether it succeeded. -/
def endBlock (ms : MState) (flavor : NodeFlavor) : Res (Bool × MState) := do
  let n ← ms.mem.get Obj.node? ms.cur
  match n.parent with
  | none => .ok (false, ms)
  | some up =>
    let u ← ms.mem.get Obj.node? up
    if u.flavor = flavor then .ok (true, { ms with cur := up }) else .ok (false, ms)

/-- `end_block` where the result is ignored. -/
def close (ms : MState) (flavor : NodeFlavor) : Res MState := do
  let (_, ms) ← ms.endBlock flavor
  .ok ms

/-- parse_functions.c:637-658 `begin_interface_def`. -/
def beginInterfaceDef (ms : MState) (isTemplate : Bool) (name : Addr) (line : Nat) :
    Res MState := do
  let s ← ms.mem.get Obj.str? name
  let maps := if isTemplate then ms.maps.insertTemplate s else ms.maps
  let (a, m) := ms.mem.malloc (.bytes s)
  { ms with mem := m, maps := maps.insertIf s ms.module }.beginBlock
    (if isTemplate then .tempDef else .interfaceDef) (some a) line

/-- parse_functions.c:660-668 `end_interface_def`. -/
def endInterfaceDef (ms : MState) : Res MState := do
  let (b, ms) ← ms.endBlock .interfaceDef
  if b then .ok ms else ms.close .tempDef

/-- parse_functions.c:670-677 `begin_gen_require`. Simplification: the flag, uninitialised in
C until the end of the block, starts as false; nothing reads it before. -/
def beginGenRequire (ms : MState) (line : Nat) : Res MState :=
  let (d, m) := ms.mem.malloc (.genReq false)
  { ms with mem := m }.beginBlock .genReq (some d) line

/-- parse_functions.c:679-687 `end_gen_require`. -/
def endGenRequire (ms : MState) (unquoted : Bool) : Res MState := do
  let n ← ms.mem.get Obj.node? ms.cur
  match n.parent with
  | none => ms.close .genReq
  | some up =>
    let u ← ms.mem.get Obj.node? up
    if u.flavor = .genReq then
      match u.data with
      | none => .ub
      | some d =>
        let m ← ms.mem.write d (.genReq unquoted)
        { ms with mem := m }.close .genReq
    else ms.close .genReq

/-- parse_functions.c:772-812 `insert_attribute`, `insert_type_attribute`,
`insert_role_attribute`. -/
def insertAttribute (ms : MState) (fl : AttrFlavor) (type : Addr) (attrs : Option Addr)
    (line : Nat) : Res MState := do
  let s ← ms.mem.get Obj.str? type
  let (t, m) := ms.mem.malloc (.bytes s)
  let (d, m) := m.malloc (.attr ⟨some t, attrs, fl⟩)
  let ms ← { ms with mem := m }.addNext
    (match fl with | .type => .typeAttribute | .role => .roleAttribute) (some d) line
  match ← ms.mem.parentInterface ms.cur with
  | none => .ok ms
  | some i =>
    if PState.isTransformInterface i || decide (ms.module = cs!"mls") ||
        decide (ms.module = cs!"mcs") then
      .ok { ms with maps := ms.maps.markTransform i }
    else .ok ms

/-- `save_command(cur, $n); free($n);` for a command. -/
def command (ms : MState) (c : Str) : Res MState := do
  let (a, ms) := ms.token c
  let m ← ms.mem.saveCommand ms.cur a
  { ms with mem := m }.free a

/-- `save_command(cur->parent, …)`: nothing happens without a parent. -/
def saveParent (ms : MState) (comm : Addr) : Res MState := do
  let n ← ms.mem.get Obj.node? ms.cur
  match n.parent with
  | none => .ok ms
  | some up => do .ok { ms with mem := (← ms.mem.saveCommand up comm) }

/-- `save_command(cur->parent, $n); free($n);`, if the production has a command
(parse.y:533, 569, 786); its token has been read before the block begins. -/
def parentCommand (ms : MState) : Option Addr → Res MState
  | none => .ok ms
  | some a => do
    let ms ← ms.saveParent a
    ms.free a

/-- A command's token, which is held while the block begins or is parsed (parse.y:533, 543, 551,
569, 786, 937, 941). -/
def heldToken (ms : MState) : Option Str → Option Addr × MState
  | none => (none, ms)
  | some c =>
    let (a, ms) := ms.token c
    (some a, ms)

/-- parse.y:543, 937, 941: `save_command(cur, $n); free($n);` at the end of the block. -/
def lateCommand (ms : MState) : Option Addr → Res MState
  | none => .ok ms
  | some a => do
    let m ← ms.mem.saveCommand ms.cur a
    { ms with mem := m }.free a

/-- parse.y:551: `save_command(cur->parent, $3);` without freeing. -/
def earlyCommand (ms : MState) : Option Addr → Res MState
  | none => .ok ms
  | some a => ms.saveParent a

/-- parse.y:552: `free($3)`. -/
def freeHeld (ms : MState) : Option Addr → Res MState
  | none => .ok ms
  | some a => ms.free a

end MState

/-! ## Running the actions of a derivation -/

/-- A declaration from one name and no attributes: parse.y:352, 356, 358, 364, 376. -/
def declareOne (ms : MState) (fl : DeclFlavor) (name : Str) (line : Nat) : Res MState := do
  let (a, ms) := ms.token name
  let ms ← ms.insertDeclaration fl a none line
  ms.free a

/-- A declaration with a default value: parse.y:378-383. -/
def declareDefault (ms : MState) (name dflt : Str) (line : Nat) : Res MState := do
  let (a, ms) := ms.token name
  let (b, ms) := ms.token dflt
  let ms ← ms.insertDeclaration .bool a none line
  let ms ← ms.free a
  ms.free b

/-- parse.y:349-384: the action of a declaration. -/
def Decl.run (d : Decl) (line : Nat) (ms : MState) : Res MState :=
  match d with
  | .type n => declareOne ms .type n line
  | .typeAttrs n l => do
    let (a, ms) := ms.token n
    let (p, ms) ← ms.value l.build
    let ms ← ms.insertDeclaration .type a p line
    ms.free a
  | .typeAlias n l => do
    let (a, ms) := ms.token n
    let (p, ms) ← ms.value l.build
    let ms ← ms.insertDeclaration .type a none line
    let ms ← ms.free a
    ms.insertAliases p .type line
  | .typeAliasAttrs n l k => do
    let (a, ms) := ms.token n
    let (p, ms) ← ms.value l.build
    let (q, ms) ← ms.value k.build
    let ms ← ms.insertDeclaration .type a q line
    let ms ← ms.free a
    ms.insertAliases p .type line
  | .attr n => declareOne ms .attribute n line
  | .cls n l => do
    let (a, ms) := ms.token n
    let (p, ms) ← ms.value l.build
    let ms ← ms.insertDeclaration .cls a p line
    ms.free a
  | .role n => declareOne ms .role n line
  | .attributeRole n => declareOne ms .attributeRole n line
  | .bool n => declareOne ms .bool n line
  | .genBool n d => declareDefault ms n d line
  | .genTunableQuoted n d => declareDefault ms n d line
  | .genTunable n d => declareDefault ms n d line

/-- parse.y:390-396: `typeattribute` and `roleattribute`. -/
def runAttribute (ms : MState) (fl : AttrFlavor) (name : Str) (l : CommaList) (line : Nat) :
    Res MState := do
  let (a, ms) := ms.token name
  let (p, ms) ← ms.value l.build
  let ms ← ms.insertAttribute fl a p line
  ms.free a

/-- The optional quoted name of a transition (parse.y:502-506). -/
def nameToken (ms : MState) : Option Str → Option Addr × MState
  | none => (none, ms)
  | some s =>
    let (a, ms) := ms.token s
    (some a, ms)

/-- parse.y:502-511: a transition to a default type. -/
def runTransition (ms : MState) (fl : TtFlavor) (s t c : SList) (d : Str) (name : Option Str)
    (line : Nat) : Res MState := do
  let (p, ms) ← ms.value s.build
  let (q, ms) ← ms.value t.build
  let (r, ms) ← ms.value c.build
  let (a, ms) := ms.token d
  let (n, ms) := nameToken ms name
  let ms ← ms.insertTypeTransition fl p q r a n line
  let ms ← ms.free a
  ms.freeHeld n

/-- parse.y:335, 386-423, 483-528, 621-623, 904-906: the actions of the statements with one
node. -/
def Simple.run (s : Simple) (line : Nat) (ms : MState) : Res MState :=
  match s with
  | .decl d => d.run line ms
  | .typeAttribute n l => runAttribute ms .type n l line
  | .roleAttribute n l => runAttribute ms .role n l line
  | .typeAlias n l => do
    let (a, ms) := ms.token n
    let (p, ms) ← ms.value l.build
    let ms ← ms.addString .typeAlias a line
    let ms ← ms.insertAliases p .type line
    ms.free a
  | .rule fl s t c p => do
    let (s, ms) ← ms.value s.build
    let (t, ms) ← ms.value t.build
    let (c, ms) ← ms.value c.build
    let (p, ms) ← ms.value p.build
    ms.insertAvRule ⟨fl, s, t, c, p⟩ line
  | .xrule fl s t c op p => do
    let (s, ms) ← ms.value s.build
    let (t, ms) ← ms.value t.build
    let (c, ms) ← ms.value c.build
    let (a, ms) := ms.token op
    let (p, ms) ← ms.value p.build
    let ms ← ms.insertXpermAvRule ⟨fl, s, t, c, p⟩ a line
    ms.free a
  | .roleAllow f t => do
    let (f, ms) ← ms.value f.build
    let (t, ms) ← ms.value t.build
    ms.insertRoleAllow f t line
  | .roleTypes r l => do
    let (a, ms) := ms.token r
    let (p, ms) ← ms.value l.build
    let ms ← ms.insertRoleTypes a p line
    ms.free a
  | .typeTransition s t c d n => runTransition ms .tt s t c d n line
  | .typeMember s t c d => runTransition ms .tm s t c d none line
  | .typeChange s t c d => runTransition ms .tc s t c d none line
  | .rangeTransition s t c r => do
    let (p, ms) ← ms.value s.build
    let (q, ms) ← ms.value t.build
    let (k, ms) ← ms.value c.build
    let (a, ms) ← ms.value r.build
    let ms ← ms.insertTypeTransition .rt p q k a none line
    ms.free a
  | .roleTransition s t d => do
    let (p, ms) ← ms.value s.build
    let (q, ms) ← ms.value t.build
    let (a, ms) := ms.token d
    let ms ← ms.insertRoleTransition p q none a line
    ms.free a
  | .roleTransitionClass s t c d => do
    let (p, ms) ← ms.value s.build
    let (q, ms) ← ms.value t.build
    let (r, ms) ← ms.value c.build
    let (a, ms) := ms.token d
    let ms ← ms.insertRoleTransition p q r a line
    ms.free a
  | .call n l => do
    let (a, ms) := ms.token n
    let (p, ms) ← ms.value (buildArgs l)
    let ms ← ms.insertInterfaceCall a p line
    ms.free a
  | .simpleMacro n => do
    let (a, ms) := ms.token n
    ms.insertM4SimpleMacro a line
  | .permissive n => do
    let (a, ms) := ms.token n
    let ms ← ms.addString .permissive a line
    ms.free a
  | .semicolon => ms.insertSemicolon line

/-- parse.y:584-608: `for (iter = $2; iter; iter = iter->next) insert_declaration(…)`. -/
def declareLoop (fl : DeclFlavor) (line : Nat) : Nat → MState → Option Addr → Res MState
  | _, ms, none => .ok ms
  | 0, _, some _ => .ub
  | fuel + 1, ms, some p => do
    let c ← ms.mem.get Obj.sl? p
    match c.string with
    | none => .ub
    | some a =>
      let ms ← ms.insertDeclaration fl a none line
      let c ← ms.mem.get Obj.sl? p
      declareLoop fl line fuel ms c.next

mutual
/-- parse.y:572-576. -/
def ReqLines.run : ReqLines → MState → Res MState
  | .one l, ms => l.run ms
  | .more ls l, ms => do l.run (← ls.run ms)
/-- parse.y:578-582. -/
def ReqLine.run : ReqLine → MState → Res MState
  | .bare s, ms => s.run ms
  | .withCommand s c, ms => do (← s.run ms).command c
/-- parse.y:584-619. -/
def ReqStmt.run : ReqStmt → MState → Res MState
  | .decls line fl _ _ names, ms => do
    let (p, ms) ← ms.value names.build
    let ms ← declareLoop fl line ms.mem.top ms p
    ms.freeList p
  | .cls line n l, ms => do
    let (a, ms) := ms.token n
    let (p, ms) ← ms.value l.build
    let ms ← ms.insertDeclaration .cls a p line
    ms.free a
  | .ifdef line _ _ cond body, ms => do
    let (a, ms) := ms.token cond
    let ms ← ms.beginBlock .ifdef none line
    let ms ← body.run ms
    let ms ← ms.close .ifdef
    ms.free a
  | .comment, ms => .ok ms
end

/-- parse.y:854-872: the name and the text of a definition. -/
def DefineContent.run : DefineContent → Mem → Res Mem
  | .none, m => .ok m
  | .empty, m => .ok m
  | .text s, m => s.run m
  | .word s, m => m.dropToken s

mutual
/-- parse.y:268-272. -/
def Lines.run : Lines → MState → Res MState
  | .one l, ms => l.run ms
  | .more ls l, ms => do l.run (← ls.run ms)
/-- parse.y:274-278. -/
def Line.run : Line → MState → Res MState
  | .bare s, ms => s.run ms
  | .withCommand s c, ms => do (← s.run ms).command c
/-- parse.y:280-347, 530-570, 635-656, 776-795, 849-852. -/
def Stmt.run : Stmt → MState → Res MState
  | .silent s, ms => ms.quiet s.run
  | .simple line s, ms => s.run line ms
  | .optional line cmd body, ms => do
    let (c, ms) := ms.heldToken cmd
    let ms ← ms.beginBlock .optionalPolicy none line
    let ms ← ms.parentCommand c
    let ms ← body.run ms
    ms.close .optionalPolicy
  | .optionalEmpty line cmd, ms => do
    let (c, ms) := ms.heldToken cmd
    let ms ← ms.beginBlock .optionalPolicy none line
    let ms ← ms.parentCommand c
    ms.close .optionalPolicy
  | .optionalElse line cmd body elseLine els, ms => do
    let (c, ms) := ms.heldToken cmd
    let ms ← ms.beginBlock .optionalPolicy none line
    let ms ← ms.parentCommand c
    let ms ← body.run ms
    let ms ← ms.close .optionalPolicy
    let ms ← ms.beginBlock .optionalElse none elseLine
    let ms ← els.run ms
    ms.close .optionalElse
  | .genRequire line cmd cmd' body, ms => do
    let (c, ms) := ms.heldToken cmd
    let ms ← ms.beginGenRequire line
    let ms ← ms.parentCommand c
    let (h, ms) := ms.heldToken cmd'
    let ms ← body.run ms
    let ms ← ms.endGenRequire false
    ms.lateCommand h
  | .genRequireUnquoted line cmd body, ms => do
    let (c, ms) := ms.heldToken cmd
    let ms ← ms.beginGenRequire line
    let ms ← ms.parentCommand c
    let ms ← body.run ms
    ms.endGenRequire true
  | .require line cmd body, ms => do
    let (h, ms) := ms.heldToken cmd
    let ms ← ms.beginBlock .require none line
    let ms ← ms.earlyCommand h
    let ms ← body.run ms
    let ms ← ms.close .require
    ms.freeHeld h
  | .ifdef line _ cond args, ms => do
    let (a, ms) := ms.token cond
    let ms ← ms.beginBlock .ifdef none line
    let ms ← args.run ms
    let ms ← ms.close .ifdef
    ms.free a
  | .ifelse line args, ms => do
    let ms ← ms.beginBlock .ifelse none line
    let ms ← args.run ms
    ms.close .ifelse
  | .userdebugOrEng body, ms => body.run ms
  | .tunable line _ cond args, ms => do
    let ms ← ms.beginBlock .tunablePolicy none line
    let ms ← ms.quiet cond.run
    let ms ← args.run ms
    ms.close .tunablePolicy
  | .boolean line cmd cond body, ms => do
    let (c, ms) := ms.heldToken cmd
    let ms ← ms.beginBlock .booleanPolicy none line
    let ms ← ms.parentCommand c
    let ms ← ms.quiet cond.run
    let ms ← body.run ms
    ms.close .booleanPolicy
  | .booleanElse line cmd cond body els, ms => do
    let (c, ms) := ms.heldToken cmd
    let ms ← ms.beginBlock .booleanPolicy none line
    let ms ← ms.parentCommand c
    let ms ← ms.quiet cond.run
    let ms ← body.run ms
    let ms ← els.run ms
    ms.close .booleanPolicy
  | .define line _ name content, ms => do
    let ms ← ms.beginBlock .define none line
    let ms ← ms.quiet (fun m => m.dropToken name)
    let ms ← ms.quiet content.run
    ms.close .define
/-- parse.y:706-710. -/
def M4Args.run : M4Args → MState → Res MState
  | .one line a, ms => do
    let ms ← ms.beginBlock .m4Arg none line
    let ms ← a.run ms
    ms.close .m4Arg
  | .more as line a, ms => do
    let ms ← as.run ms
    let ms ← ms.beginBlock .m4Arg none line
    let ms ← a.run ms
    ms.close .m4Arg
/-- parse.y:712-720. -/
def M4Argument.run : M4Argument → MState → Res MState
  | .empty, ms => .ok ms
  | .emptyQuoted, ms => .ok ms
  | .quoted body, ms => body.run ms
  | .word s, ms => ms.quiet (fun m => m.dropToken s)
end

/-- parse.y:934-942: the body of a definition. -/
def runBody : Option Lines → MState → Res MState
  | none, ms => .ok ms
  | some b, ms => b.run ms

/-- parse.y:934-962. -/
def IfDef.run (d : IfDef) (ms : MState) : Res MState := do
  let (a, ms) := ms.token d.name
  let ms ← ms.beginInterfaceDef d.isTemplate a d.line
  let ms ← ms.free a
  let (h, ms) := ms.heldToken d.cmd
  let ms ← runBody d.body ms
  let ms ← ms.endInterfaceDef
  ms.lateCommand h

/-- parse.y:928-932. -/
def IfLine.run (l : IfLine) (ms : MState) : Res MState :=
  match l with
  | .defn d => d.run ms
  | .comment line => ms.insertComment line

/-- parse.y:922-926: the lines after the first definition. -/
def runIfLines : List IfLine → MState → Res MState
  | [], ms => .ok ms
  | l :: ls, ms => do runIfLines ls (← l.run ms)

/-- parse.y:229-237: leading comments. -/
def runComments : List Nat → MState → Res MState
  | [], ms => .ok ms
  | n :: ns, ms => do runComments ns (← ms.insertComment n)

/-- parse.y:240-262: the header; `header_version` frees its token. -/
def Header.run (h : Header) (ms : MState) : Res MState := do
  let (a, ms) := ms.token h.name
  let ms ← ms.quiet (fun m => m.dropToken h.version)
  let ms ← ms.insertHeader a (if h.isMacro then .macro else .bare) h.line
  ms.free a

/-- The lists of permissions in the table of macros: `kept` are those that are in the table,
with their names, `forgotten` those that nothing points to. -/
structure Sptables where
  kept : List (Str × Option Addr)
  forgotten : List (Option Addr)

/-- parse.y:991-995, maps.c:488-502 `insert_into_permmacros_map`: the list is kept if the
name is new; otherwise it is neither stored nor freed. -/
def giveList (ms : MState) (t : Sptables) (name : Str) (l : Option Addr) (val : List Str) :
    MState × Sptables :=
  match ms.maps.permmacros.find name with
  | some _ => (ms, { t with forgotten := t.forgotten ++ [l] })
  | none => ({ ms with maps := ms.maps.insertPermmacro name val }, { t with kept := t.kept ++ [(name, l)] })

/-- parse.y:983-1004 `support_def`. -/
def SptDef.run (d : SptDef) (ms : MState) (t : Sptables) : Res (MState × Sptables) := do
  let (a, ms) := ms.token d.name
  let (p, ms) ← ms.value d.list.build
  match d.warn with
  | some w =>
    let ms ← ms.quiet w.run
    let ms ← ms.free a
    let ms ← ms.freeList p
    .ok (ms, t)
  | none =>
    let s ← ms.mem.get Obj.str? a
    if endsWith s cs!"_perms" then
      let l ← ms.mem.readList ms.mem.top p
      let (ms, t) := giveList ms t s p (l.map (·.1))
      let ms ← ms.free a
      .ok (ms, t)
    else
      let ms ← ms.freeList p
      let ms ← ms.free a
      .ok (ms, t)

/-- parse.y:971-981: the later lines of a support file. -/
def runSptLines : List (Option SptDef) → MState → Sptables → Res (MState × Sptables)
  | [], ms, t => .ok (ms, t)
  | none :: ds, ms, t => runSptLines ds ms t
  | some d :: ds, ms, t => do
    let (ms, t) ← d.run ms t
    runSptLines ds ms t

/-- parse.y:1071-1076 `av_permission`, repeatedly. -/
def runPerms : List (Option Str) → MState → Res MState
  | [], ms => .ok ms
  | none :: ps, ms => runPerms ps ms
  | some s :: ps, ms => do
    let (a, ms) := ms.token s
    let ms ← { ms with maps := ms.maps.insertDecl s avFileName .perm }.free a
    runPerms ps ms

/-- parse.y:1026-1060 `av_definition`. The permissions are entered first. -/
def AvDef.run (d : AvDef) (ms : MState) : Res MState :=
  match d with
  | .cls n p => do
    let (a, ms) := ms.token n
    let ms ← runPerms p.all ms
    { ms with maps := ms.maps.insertDecl n avFileName .cls }.free a
  | .inherits n c => do
    let (a, ms) := ms.token n
    let (b, ms) := ms.token c
    let ms ← { ms with maps := ms.maps.insertDecl n avFileName .cls }.free a
    ms.free b
  | .inheritsPerms n c p => do
    let (a, ms) := ms.token n
    let (b, ms) := ms.token c
    let ms ← runPerms p.all ms
    let ms ← { ms with maps := ms.maps.insertDecl n avFileName .cls }.free a
    ms.free b
  | .common n p => do
    let (a, ms) := ms.token n
    let ms ← runPerms p.all ms
    ms.free a

/-- parse.y:1014-1024: the later lines of an access vector file. -/
def runAvLines : List (Option AvDef) → MState → Res MState
  | [], ms => .ok ms
  | none :: ds, ms => runAvLines ds ms
  | some d :: ds, ms => do runAvLines ds (← d.run ms)

/-- parse.y:1177-1184: the parser's variables at the start of a file. -/
def MState.init (m : Mem) (expected : NodeFlavor) (mod : Str) (maps : Maps) : MState :=
  let (a, m) := m.malloc (.node ⟨none, none, none, none, expected, none, none, 0⟩)
  ⟨m, a, maps, mod, []⟩

/-- parse.y:200-221, 1177-1198 `yyparse_wrapper` for a file with the given derivation whose
kind is the one the file was opened for; the first component is `ast`. -/
def SourceFile.run (f : SourceFile) (expected : PlainFlavor) (mod : Str) (maps : Maps) (m : Mem) :
    Res (Addr × MState × Sptables) := do
  let ms := MState.init m (NodeData.plain expected none).flavor mod maps
  let ast := ms.cur
  let none : Sptables := ⟨[], []⟩
  match f with
  | .empty =>
    let n ← ms.mem.get Obj.node? ms.cur
    let m ← ms.mem.write ms.cur (.node { n with flavor := .empty })
    .ok (ast, { ms with mem := m }, none)
  | .te cs h b =>
    let ms ← runComments cs ms
    let ms ← h.run ms
    .ok (ast, ← b.run ms, none)
  | .iface cs d ls =>
    let ms ← runComments cs ms
    let ms ← d.run ms
    .ok (ast, ← runIfLines ls ms, none)
  | .spt cs d ls =>
    let ms ← runComments cs ms
    let (ms, t) ← d.run ms none
    let (ms, t) ← runSptLines ls ms t
    .ok (ast, ms, t)
  | .av cs d ls =>
    let ms ← runComments cs ms
    let ms ← d.run ms
    .ok (ast, ← runAvLines ls ms, none)
  | .comments c cs =>
    let ms ← runComments (c :: cs) ms
    .ok (ast, ms, none)

end Selint
