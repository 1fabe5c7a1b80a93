import Verif.Model.Tree
/-! # Specification vocabulary for trees: document order, positions, all nodes of a forest -/

namespace Selint

mutual
/-- The nodes of a tree in document order. -/
def Tree.preorder : Tree → List NodeInfo
  | .mk i cs => i :: Tree.preorderList cs
/-- The nodes of a list of trees in document order. -/
def Tree.preorderList : List Tree → List NodeInfo
  | [] => []
  | t :: ts => t.preorder ++ Tree.preorderList ts
end

namespace Loc

/-- The siblings of a node, itself included, in order. -/
def siblings (l : Loc) : List Tree := l.lefts.reverse ++ l.focus :: l.rights

/-- Put a list of siblings back under their enclosing frames. -/
def plug (sibs : List Tree) : List Frame → List Tree
  | [] => sibs
  | f :: fs => plug (f.lefts.reverse ++ .mk f.info sibs :: f.rights) fs

/-- The AST (list of top-level nodes) a pointer points into. -/
def unzip (l : Loc) : List Tree := plug l.siblings l.ups

/-- The address of a node: child indices from the top level down. Lexicographic order on
addresses is document order, an enclosing node coming before what it encloses. -/
def addr (l : Loc) : List Nat := l.path.reverse

end Loc

end Selint
