import Verif.Spec.DeepSuccess
/-!
# Specification: the shape of the tree that `to_deep_ahb` builds

The tree is described by the sequence of what is met from top to bottom (`documentOrder`) and the depth of each group in this sequence.
-/

namespace Verif

/-- the depth of each group in document order; the outermost groups have depth 1 -/
def groupDepths (l : List SegmentGroup) : List Nat := (groupAddresses l).map List.length

/-- the lists of segments and of groups of each group are lists, not `None` -/
def HasLists (l : List SegmentGroup) : Prop := ∀ a g, groupAt? l a = some g → g.segments ≠ none ∧ g.segmentGroups ≠ none

/-- the depths of groups that are opened one after the other, behind a group of the given depth -/
def depthsAfter : Nat → List Opening → List Nat
  | _, [] => []
  | depth, o :: os =>
    match o.previous.bind fun previous => depthAfter? depth previous o.layers with
    | some depth' => depth' :: depthsAfter depth' os
    | none => []

/-- the depths of all groups: the first one is an outermost group -/
def openingDepths : List Opening → List Nat
  | [] => []
  | _ :: os => 1 :: depthsAfter 1 os

end Verif
