import Verif.Model.Heap
import Verif.Spec.Tree
/-!
# What it means for the heap to hold a well-formed doubly linked tree

`Forest` is a list of sibling nodes with addresses, each with its own list of children:
the picture one would draw of the data structure. `cells` writes down what every link of
every node in the picture has to be.
-/

namespace Selint.Spec

/-- A possibly empty list of siblings: the first one, with its address, what it holds and
its children, followed by the other siblings. -/
inductive Forest where
  | nil
  | node (ptr : Ptr) (info : NodeInfo) (kids rest : Forest)

namespace Forest

/-- The address of the first sibling. -/
def head : Forest → Option Ptr
  | nil => none
  | node p _ _ _ => some p

/-- The addresses of all nodes in document order. -/
def addrs : Forest → List Ptr
  | nil => []
  | node p _ k r => p :: (k.addrs ++ r.addrs)

/-- The number of nodes. -/
def size : Forest → Nat
  | nil => 0
  | node _ _ k r => k.size + r.size + 1

/-- The tree structure without the addresses. -/
def trees : Forest → List Tree
  | nil => []
  | node _ i k r => .mk i k.trees :: r.trees

/-- Every node with what its members must be, for siblings under `parent` whose first one
comes after `prev`. -/
def cells (parent prev : Option Ptr) : Forest → List (Ptr × HNode)
  | nil => []
  | node p i k r =>
    (p, { info := i, parent := parent, prev := prev, next := r.head, firstChild := k.head }) ::
      (k.cells (some p) none ++ r.cells parent (some p))

/-- Add a new sibling at the end. -/
def snoc (f : Forest) (p : Ptr) (i : NodeInfo) : Forest :=
  match f with
  | nil => node p i nil nil
  | node q j k r => node q j k (r.snoc p i)

/-- Add a new last child to the node at address `t`. -/
def addChild (t p : Ptr) (i : NodeInfo) : Forest → Forest
  | nil => nil
  | node q j k r =>
    if q = t then node q j (k.snoc p i) r
    else node q j (k.addChild t p i) (r.addChild t p i)

/-- Add a new sibling directly after the node at address `t`. -/
def addNext (t p : Ptr) (i : NodeInfo) : Forest → Forest
  | nil => nil
  | node q j k r =>
    if q = t then node q j k (node p i nil r)
    else node q j (k.addNext t p i) (r.addNext t p i)

/-- The addresses of the nodes that have no successor. -/
def lasts : Forest → List Ptr
  | nil => []
  | node p _ k nil => p :: k.lasts
  | node _ _ k (node p i k' r) => k.lasts ++ (node p i k' r).lasts

end Forest

/-- The heap holds the forest as a well-formed doubly linked tree: no two nodes share an
address, and every node holds its data and the links of the picture. -/
structure Holds (h : Heap) (f : Forest) : Prop where
  distinct : f.addrs.Nodup
  linked : ∀ c ∈ f.cells none none, h c.1 = some c.2

end Selint.Spec
