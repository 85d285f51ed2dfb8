import Verif.Model.Sgh
/-!
# Specification vocabulary for segment group hierarchies: tree addresses

An address is a list of child indices. Address `[]` is the hierarchy itself, `[2, 0]` is the first sub group of its
third sub group. Nothing here uses the recursive functions of the model.
-/

namespace Verif
namespace Sgh

/-- the direct sub groups (none if `sub_hierarchy` is `None`) -/
def children (s : Sgh) : List Sgh := s.subHierarchy.getD []

/-- the group at an address -/
def at? : Sgh → List Nat → Option Sgh
  | s, [] => some s
  | s, i :: a => (s.children[i]?).bind fun c => c.at? a

/-- the key of the group at an address -/
def keyAt? (s : Sgh) (a : List Nat) : Option (Option PyStr) := (s.at? a).map segmentGroup

/-- no two groups of the hierarchy have the same key -/
def KeysDistinct (s : Sgh) : Prop :=
  ∀ a b g h, s.at? a = some g → s.at? b = some h → g.segmentGroup = h.segmentGroup → a = b

/-- group `x` occurs strictly below an occurrence of group `y` -/
def StrictlyBelow (s : Sgh) (x y : Option PyStr) : Prop :=
  ∃ a b, b ≠ [] ∧ s.keyAt? a = some y ∧ s.keyAt? (a ++ b) = some x

/-- the keys met on the way from the root to an address (root and target included) -/
def pathKeys (s : Sgh) : List Nat → List (Option PyStr)
  | [] => [s.segmentGroup]
  | i :: a => s.segmentGroup :: match s.children[i]? with
    | some c => c.pathKeys a
    | none => []

end Sgh
end Verif
