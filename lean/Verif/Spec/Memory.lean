import Verif.Model.Memory
/-!
# What lies in memory

`SlAt m p l ps` says that in the memory `m` the pointer `p` is the beginning of the list of
strings `l`, each with its `has_incorrect_space` mark, and that `ps` lists the addresses
of all objects the list consists of: its cells and its strings, no object being part of it
twice. The other predicates say the same of the other structures. The addresses `ps` are
what the structure *owns*.
-/

namespace Selint.Spec

/-- No address at or above the one that is handed out next is in use. -/
def Bounded (m : Mem) : Prop := ∀ q, m.top ≤ q → m.obj q = none

/-- The memory without the objects at the given addresses. -/
def dropped (m : Mem) (ps : List Addr) : Mem :=
  ⟨fun q => if q ∈ ps then none else m.obj q, m.top⟩

/-- Outside of the addresses `ps` nothing differs. -/
def SameOff (m m' : Mem) (ps : List Addr) : Prop := ∀ q, q ∉ ps → m'.obj q = m.obj q

/-- The memory `m'` is `m` with new objects at the addresses `ps` and nothing else changed. -/
def AddsOnly (m m' : Mem) (ps : List Addr) : Prop := (∀ q ∈ ps, m.obj q = none) ∧ SameOff m m' ps

/-- A string. -/
inductive StrAt (m : Mem) : Option Addr → Str → List Addr → Prop
  | mk {a : Addr} {s : Str} : m.obj a = some (.bytes s) → StrAt m (some a) s [a]

/-- A string or NULL. -/
inductive OptStrAt (m : Mem) : Option Addr → Option Str → List Addr → Prop
  | none : OptStrAt m none none []
  | some {a : Addr} {s : Str} : m.obj a = some (.bytes s) → OptStrAt m (some a) (some s) [a]

/-- A list of strings, with the `has_incorrect_space` marks. -/
inductive SlAt (m : Mem) : Option Addr → List (Str × Bool) → List Addr → Prop
  | nil : SlAt m none [] []
  | cons {p a : Addr} {n : Option Addr} {s : Str} {b : Bool} {l : List (Str × Bool)}
      {ps : List Addr} :
      m.obj p = some (.sl ⟨some a, n, b⟩) → m.obj a = some (.bytes s) → SlAt m n l ps →
      p ∉ ps → a ∉ ps → SlAt m (some p) ((s, b) :: l) (p :: a :: ps)

/-- A list of strings none of which is marked. -/
def NamesAt (m : Mem) (p : Option Addr) (l : List Str) (ps : List Addr) : Prop :=
  SlAt m p (l.map fun s => (s, false)) ps

/-- A security context. -/
inductive CtxAt (m : Mem) : Option Addr → Option SelContext → List Addr → Prop
  | none : CtxAt m none none []
  | some {p : Addr} {d : CtxObj} {g : Bool} {user role type : Str} {range : Option Str}
      {p₁ p₂ p₃ p₄ : List Addr} :
      m.obj p = some (.ctx d) → d.hasGenContext = g →
      StrAt m d.user user p₁ → StrAt m d.role role p₂ → StrAt m d.type type p₃ →
      OptStrAt m d.range range p₄ → (p₁ ++ p₂ ++ p₃ ++ p₄ ++ [p]).Nodup →
      CtxAt m (some p) (some ⟨g, user, role, type, range⟩) (p₁ ++ p₂ ++ p₃ ++ p₄ ++ [p])

/-- The data of a declaration. -/
inductive DeclAt (m : Mem) : Option Addr → DeclData → List Addr → Prop
  | mk {p : Addr} {d : DeclObj} {fl : DeclFlavor} {name : Str} {attrs : List Str}
      {p₁ p₂ : List Addr} :
      m.obj p = some (.decl d) → d.flavor = fl → NamesAt m d.attrs attrs p₁ →
      StrAt m d.name name p₂ → (p₁ ++ p₂ ++ [p]).Nodup →
      DeclAt m (some p) ⟨fl, name, attrs⟩ (p₁ ++ p₂ ++ [p])

/-- The data of a node. -/
inductive DataAt (m : Mem) : Option Addr → NodeData → List Addr → Prop
  | header {p : Addr} {d : HeaderObj} {fl : HeaderFlavor} {name : Str} {p₁ : List Addr} :
      m.obj p = some (.header d) → d.flavor = fl → StrAt m d.moduleName name p₁ →
      (p₁ ++ [p]).Nodup → DataAt m (some p) (.header ⟨fl, name⟩) (p₁ ++ [p])
  | av {p : Addr} {d : AvObj} {fl : AvFlavor} {l₁ l₂ l₃ l₄ : List Str}
      {p₁ p₂ p₃ p₄ : List Addr} :
      m.obj p = some (.av d) → d.flavor = fl → NamesAt m d.sources l₁ p₁ →
      NamesAt m d.targets l₂ p₂ → NamesAt m d.objectClasses l₃ p₃ → NamesAt m d.perms l₄ p₄ →
      (p₁ ++ p₂ ++ p₃ ++ p₄ ++ [p]).Nodup →
      DataAt m (some p) (.av ⟨fl, l₁, l₂, l₃, l₄⟩) (p₁ ++ p₂ ++ p₃ ++ p₄ ++ [p])
  | xav {p : Addr} {d : XavObj} {fl : AvFlavor} {l₁ l₂ l₃ l₄ : List Str} {op : Str}
      {p₁ p₂ p₃ p₄ p₅ : List Addr} :
      m.obj p = some (.xav d) → d.av.flavor = fl → NamesAt m d.av.sources l₁ p₁ →
      NamesAt m d.av.targets l₂ p₂ → NamesAt m d.av.objectClasses l₃ p₃ →
      StrAt m d.operation op p₄ → NamesAt m d.av.perms l₄ p₅ →
      (p₁ ++ p₂ ++ p₃ ++ p₄ ++ p₅ ++ [p]).Nodup →
      DataAt m (some p) (.xav ⟨fl, l₁, l₂, l₃, l₄⟩ op) (p₁ ++ p₂ ++ p₃ ++ p₄ ++ p₅ ++ [p])
  | roleAllow {p : Addr} {d : RaObj} {l₁ l₂ : List Str} {p₁ p₂ : List Addr} :
      m.obj p = some (.ra d) → NamesAt m d.frm l₁ p₁ → NamesAt m d.to l₂ p₂ →
      (p₁ ++ p₂ ++ [p]).Nodup →
      DataAt m (some p) (.roleAllow ⟨l₁, l₂⟩) (p₁ ++ p₂ ++ [p])
  | roleTypes {p : Addr} {d : RtypObj} {role : Str} {l : List Str} {p₁ p₂ : List Addr} :
      m.obj p = some (.rtyp d) → StrAt m d.role role p₁ → NamesAt m d.types l p₂ →
      (p₁ ++ p₂ ++ [p]).Nodup →
      DataAt m (some p) (.roleTypes ⟨role, l⟩) (p₁ ++ p₂ ++ [p])
  | tt {p : Addr} {d : TtObj} {l₁ l₂ l₃ : List Str} {dt : Str} {name : Option Str}
      {fl : TtFlavor} {p₁ p₂ p₃ p₄ p₅ : List Addr} :
      m.obj p = some (.tt d) → NamesAt m d.sources l₁ p₁ → NamesAt m d.targets l₂ p₂ →
      NamesAt m d.objectClasses l₃ p₃ → StrAt m d.defaultType dt p₄ →
      OptStrAt m d.name name p₅ → d.flavor = fl →
      (p₁ ++ p₂ ++ p₃ ++ p₄ ++ p₅ ++ [p]).Nodup →
      DataAt m (some p) (.tt ⟨l₁, l₂, l₃, dt, name, fl⟩) (p₁ ++ p₂ ++ p₃ ++ p₄ ++ p₅ ++ [p])
  | rt {p : Addr} {d : RtObj} {l₁ l₂ l₃ : List Str} {dr : Str} {p₁ p₂ p₃ p₄ : List Addr} :
      m.obj p = some (.rt d) → NamesAt m d.sources l₁ p₁ → NamesAt m d.targets l₂ p₂ →
      NamesAt m d.objectClasses l₃ p₃ → StrAt m d.defaultRole dr p₄ →
      (p₁ ++ p₂ ++ p₃ ++ p₄ ++ [p]).Nodup →
      DataAt m (some p) (.rt ⟨l₁, l₂, l₃, dr⟩) (p₁ ++ p₂ ++ p₃ ++ p₄ ++ [p])
  | ifCall {p : Addr} {d : CallObj} {name : Str} {args : List (Str × Bool)}
      {p₁ p₂ : List Addr} :
      m.obj p = some (.call d) → StrAt m d.name name p₁ → SlAt m d.args args p₂ →
      (p₁ ++ p₂ ++ [p]).Nodup →
      DataAt m (some p) (.ifCall ⟨name, args⟩) (p₁ ++ p₂ ++ [p])
  | decl {p : Option Addr} {d : DeclData} {ps : List Addr} :
      DeclAt m p d ps → DataAt m p (.decl d) ps
  | fc {p : Addr} {d : FcObj} {path : Str} {c : Option Char} {ctx : Option SelContext}
      {p₁ p₂ : List Addr} :
      m.obj p = some (.fc d) → d.obj = c → StrAt m d.path path p₁ → CtxAt m d.context ctx p₂ →
      (p₁ ++ p₂ ++ [p]).Nodup → DataAt m (some p) (.fc ⟨path, c, ctx⟩) (p₁ ++ p₂ ++ [p])
  | attr {p : Addr} {d : AttrObj} {type : Str} {attrs : List Str} {fl : AttrFlavor}
      {p₁ p₂ : List Addr} :
      m.obj p = some (.attr d) → StrAt m d.type type p₁ → NamesAt m d.attrs attrs p₂ →
      d.flavor = fl → (p₁ ++ p₂ ++ [p]).Nodup →
      DataAt m (some p) (.attr ⟨type, attrs, fl⟩) (p₁ ++ p₂ ++ [p])
  | genReq {p : Addr} {u : Bool} :
      m.obj p = some (.genReq u) → DataAt m (some p) (.genReq u) [p]
  | plain {p : Option Addr} {f : PlainFlavor} {s : Option Str} {ps : List Addr} :
      OptStrAt m p s ps → DataAt m p (.plain f s) ps

/-- Sibling nodes with everything below them: `up` is the node they are children of, `left`
the sibling before the first of them. -/
inductive NodesAt (m : Mem) :
    (up left : Option Addr) → Option Addr → List Tree → List Addr → Prop
  | nil {up left : Option Addr} : NodesAt m up left none [] []
  | cons {up left : Option Addr} {p : Addr} {n : NodeObj} {i : NodeInfo} {ts rest : List Tree}
      {p₁ p₂ p₃ p₄ : List Addr} :
      m.obj p = some (.node n) → n.parent = up → n.prev = left → n.flavor = i.data.flavor →
      n.lineno = i.lineno → DataAt m n.data i.data p₁ →
      OptStrAt m n.exceptions i.exceptions p₂ → NodesAt m (some p) none n.firstChild ts p₃ →
      NodesAt m up (some p) n.next rest p₄ → (p₁ ++ p₂ ++ p₃ ++ p₄ ++ [p]).Nodup →
      NodesAt m up left (some p) (.mk i ts :: rest) (p₁ ++ p₂ ++ p₃ ++ p₄ ++ [p])

/-- The cells of a list of declarations, and the declarations. -/
inductive DeclsAt (m : Mem) : Option Addr → List DeclData → List Addr → Prop
  | nil : DeclsAt m none [] []
  | cons {p : Addr} {c : ListCell} {d : DeclData} {ds : List DeclData} {p₁ p₂ : List Addr} :
      m.obj p = some (.cell c) → DeclAt m c.elem d p₁ → DeclsAt m c.next ds p₂ →
      (p₁ ++ [p] ++ p₂).Nodup → DeclsAt m (some p) (d :: ds) (p₁ ++ [p] ++ p₂)

/-- The cells of a list of calls, whose elements are the addresses `cs`. -/
inductive CallsAt (m : Mem) : Option Addr → (cs : List Addr) → List Addr → Prop
  | nil : CallsAt m none [] []
  | cons {p c : Addr} {n : Option Addr} {cs ps : List Addr} :
      m.obj p = some (.cell ⟨some c, n⟩) → CallsAt m n cs ps → p ∉ ps →
      CallsAt m (some p) (c :: cs) (p :: ps)

/-- The cells of a list of files, and the files with their names and trees; `last` is the
last cell. -/
inductive FilesAt (m : Mem) :
    Option Addr → (last : Option Addr) → List (Str × List Tree) → List Addr → Prop
  | nil : FilesAt m none none [] []
  | cons {p f : Addr} {n last : Option Addr} {d : FileObj} {name : Str} {ts : List Tree}
      {fs : List (Str × List Tree)} {p₁ p₂ p₃ : List Addr} :
      m.obj p = some (.cell ⟨some f, n⟩) → m.obj f = some (.file d) →
      StrAt m d.filename name p₁ → NodesAt m none none d.ast ts p₂ → FilesAt m n last fs p₃ →
      (p₁ ++ p₂ ++ [f, p] ++ p₃).Nodup →
      FilesAt m (some p) (some (last.getD p)) ((name, ts) :: fs) (p₁ ++ p₂ ++ [f, p] ++ p₃)

/-- A list of files with its header. -/
def FileListAt (m : Mem) (p : Addr) (fs : List (Str × List Tree)) (ps : List Addr) : Prop :=
  ∃ l qs, m.obj p = some (.files l) ∧ FilesAt m l.head l.tail fs qs ∧ (qs ++ [p]).Nodup ∧
    ps = qs ++ [p]

/-- A node that has what its kind needs: an allow rule for roles a first role, an alias or
permissive line a name. -/
def Complete : NodeData → Prop
  | .roleAllow d => d.frm ≠ []
  | .plain .alias s => s ≠ none
  | .plain .typeAlias s => s ≠ none
  | .plain .permissive s => s ≠ none
  | _ => True

end Selint.Spec
