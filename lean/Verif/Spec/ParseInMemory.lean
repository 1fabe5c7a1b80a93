import Verif.Spec.Memory
import Verif.Model.ParseInMemory
import Verif.Spec.Tree
/-!
# What a parsed file leaves in memory
-/

namespace Selint.Spec

/-- Apart from the objects at the addresses `R`, nothing is allocated; no address is listed
twice. -/
structure Owns (m : Mem) (R : List Addr) : Prop where
  nodup : R.Nodup
  below : ∀ q ∈ R, q < m.top
  only : ∀ q, q ∉ R → m.obj q = none

/-- The memory `m'` is `m` with new objects at the addresses `ps`, none of them listed twice,
and nothing else changed. -/
structure Grows (m m' : Mem) (ps : List Addr) : Prop where
  nodup : ps.Nodup
  new : ∀ q ∈ ps, m.obj q = none ∧ m'.obj q ≠ none
  same : ∀ q, q ∉ ps → m'.obj q = m.obj q

/-- Every one of these addresses is that of a string. -/
def StringsAt (m : Mem) (L : List Addr) : Prop := ∀ q ∈ L, ∃ s, m.obj q = some (.bytes s)

/-- 1 for a node that has a string of exceptions, 0 for one that has none. -/
def hasExceptions (i : NodeInfo) : Nat := if i.exceptions.isSome then 1 else 0

mutual
/-- How many nodes of a tree have a string of exceptions. -/
def exceptionsIn : Tree → Nat
  | .mk i ts => hasExceptions i + exceptionsBelow ts
/-- How many nodes of a list of trees have a string of exceptions. -/
def exceptionsBelow : List Tree → Nat
  | [] => 0
  | t :: ts => exceptionsIn t + exceptionsBelow ts
end

/-- A comment that switches checks off: from its first `s` on it begins with
`selint-disable:`. -/
def disablesChecks (c : Str) : Bool := cs!"selint-disable:".isPrefixOf (c.dropWhile (· ≠ 's'))

/-- How many of these tokens are comments that switch checks off. -/
def disablings (ts : List Token) : Nat :=
  ts.countP fun
    | .command c => disablesChecks c
    | _ => false

/-- Lists of strings one after the other. -/
inductive ListsAt (m : Mem) : List (Option Addr × List Str) → List Addr → Prop
  | nil : ListsAt m [] []
  | cons {p : Option Addr} {l : List Str} {ls : List (Option Addr × List Str)}
      {ps qs : List Addr} :
      NamesAt m p l ps → ListsAt m ls qs → ListsAt m ((p, l) :: ls) (ps ++ qs)

/-- A definition of a set of permissions: its name ends in `_perms`, and it does not end in a
warning. -/
def definesPermissions (d : SptDef) : Bool := d.warn.isNone && cs!"_perms".isSuffixOf d.name

/-- How many sets of permissions a file defines. -/
def permissionLists : SourceFile → Nat
  | .spt _ d ds => (some d :: ds).countP fun o => o.any definesPermissions
  | _ => 0

/-- What there is after a file has been parsed, beginning with the memory `m₀` and the tables
`maps`: a tree, owning `T`; strings `L` that nothing points to; lists of permissions, owning
`G`, some of them in the table of macros (`K`) and some that nothing points to (`F`). -/
structure Parsed (f : SourceFile) (maps : Maps) (m₀ : Mem) (st : PState) (ast : Addr)
    (ms : MState) (t : Sptables) (T L G : List Addr) : Prop where
  /-- the tree is the one of the functional model -/
  tree : NodesAt ms.mem none none (some ast) st.loc.unzip T
  strings : StringsAt ms.mem L
  /-- each command's string is either in the tree or lost -/
  count : L.length + exceptionsBelow st.loc.unzip = disablings f.tokens
  lists : ∃ (K : List (Str × Option Addr × List Str)) (F : List (Option Addr × List Str)),
    ListsAt ms.mem (K.map (·.2) ++ F) G ∧
    (∀ cs d ds, f = .spt cs d ds →
      ms.maps.permmacros = maps.permmacros ++ K.map (fun e => (e.1, e.2.2))) ∧
    t.kept = K.map (fun e => (e.1, e.2.1)) ∧ t.forgotten = F.map (·.1) ∧
    K.length + F.length = permissionLists f
  /-- nothing else was allocated, and nothing that was there is changed -/
  grows : Grows m₀ ms.mem (T ++ L ++ G)
  maps : ms.maps = st.maps
  module : ms.module = st.module
  rets : ms.rets = st.rets

end Selint.Spec
