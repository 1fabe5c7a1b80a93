import Verif.Model.ListsInMemory
import Verif.Spec.Memory
/-!
# What a linked list with a name in every element looks like in memory
-/

namespace Selint.Spec

/-- From the address `p` on, memory holds the list `l`: an element `x` is an allocated object
`cell x a n`, where the name `name x` is at `a` and the rest of the list at `n`. The list
consists of the addresses `ps`, no two of them the same. -/
inductive ChainAt {α : Type} (cell : α → Addr → Option Addr → Obj) (name : α → Str) (m : Mem) :
    Option Addr → List α → List Addr → Prop
  | nil : ChainAt cell name m none [] []
  | cons {p a : Addr} {n : Option Addr} {x : α} {l : List α} {ps : List Addr} :
      m.obj p = some (cell x a n) → m.obj a = some (.bytes (name x)) →
      ChainAt cell name m n l ps → (a :: p :: ps).Nodup →
      ChainAt cell name m (some p) (x :: l) (a :: p :: ps)

/-- A check in memory. -/
def checkCell (c : CheckNode Nat) (a : Addr) (n : Option Addr) : Obj :=
  .check ⟨c.fn, some a, c.issuesFound, n⟩

/-- A permission macro in memory. -/
def macroCell (c : PermMacro) (a : Addr) (n : Option Addr) : Obj := .permMacro ⟨n, some a, c.maskRaw⟩

/-- A section in memory. -/
def sectCell (c : SectionData) (a : Addr) (n : Option Addr) : Obj :=
  .sect ⟨some a, c.count, c.sum, n⟩

/-- Lists of checks, of macros and of sections. -/
abbrev ChecksAt := ChainAt checkCell (·.id)
abbrev MacrosAt := ChainAt macroCell (·.name)
abbrev SectionChain := ChainAt sectCell (·.name)

/-- The list of sections begins with an element that has no name as long as there is no
section. -/
def SectionsAt (m : Mem) (p : Addr) (l : List SectionData) (ps : List Addr) : Prop :=
  (l = [] ∧ m.obj p = some (.sect ⟨none, 0, 0, none⟩) ∧ ps = [p]) ∨
  (l ≠ [] ∧ SectionChain m (some p) l ps)

/-- A family of lists, at addresses of which no two are the same. -/
def FamilyAt {ι α : Type} (all : List ι) (cell : α → Addr → Option Addr → Obj) (name : α → Str)
    (m : Mem) (heads : ι → Option Addr) (lists : ι → List α) (ps : List Addr) : Prop :=
  ∃ P : ι → List Addr, (∀ i, ChainAt cell name m (heads i) (lists i) (P i)) ∧
    ps = all.flatMap P

/-- The lists of perm_macro.c:38-44. -/
def categories : List Category :=
  [.dir, .file, .lnkFile, .chrFile, .blkFile, .sockFile, .fifoFile]

end Selint.Spec
