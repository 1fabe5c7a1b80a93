import Verif.Lemmas.Lalr
/-!
# How often the parser reduces before it shifts

How many empty productions the parser may reduce from a state on before it shifts a token, and a
weight for every nonterminal that makes the other reductions descend. Computed by a script; only
what `LalrEnds.lean` checks about them is used.
-/

namespace Selint
namespace Lr

/-- The states in which an empty production may be reduced, and how many. -/
def phaseTable : List (Nat × Nat) := [
  (0, 1), (183, 1), (195, 1), (206, 3), (209, 1), (280, 1), (313, 2), (316, 1), (363, 1), (387,
  1), (389, 1), (401, 1), (458, 1), (469, 2), (478, 2), (493, 1), (504, 1), (510, 3), (511, 1),
  (534, 1), (541, 2), (544, 2), (554, 1)]

/-- The nonterminals that lead to such a state. -/
def phasesAfter : List (Nat × Nat) := [
  (128, 1), (155, 1), (156, 2), (157, 2), (158, 1)]

/-- The weights of the nonterminals. -/
def ntWeights : List Nat := [
  7, 8, 7, 10, 10, 8, 7, 9, 8, 8, 7, 7, 7, 10, 7, 12, 12, 7, 7, 9, 8, 11, 7, 8, 11, 11, 7, 7, 7,
  7, 11, 7, 11, 11, 7, 7, 7, 8, 7, 8, 7, 7, 12, 12, 11, 9, 9, 8, 7, 7, 11, 11, 8, 7, 7, 7, 7, 7,
  7, 7, 7, 7, 7, 7, 7, 7, 7, 9, 8, 7, 11, 11, 11, 7, 11, 7, 11, 11, 9, 12, 11, 9, 8, 7, 11, 11,
  11, 11, 11, 7, 11, 8, 8, 8, 7, 7, 7, 7, 9, 8, 12, 7, 11, 11, 12, 11, 11, 12, 7, 10, 7, 9, 11]

end Lr
end Selint
