import Verif.Py.Base
/-!
# Model of `maus.models.message_implementation_guide`
-/

namespace Verif

/-- `SegmentGroupHierarchy` — /repo/src/maus/models/message_implementation_guide.py:16-35.
The `instance_of(str)` validators (29, 31) are reflected by the types. -/
inductive Sgh where
  | mk (segmentGroup : Option PyStr) (openingSegment : PyStr) (subHierarchy : Option (List Sgh))

namespace Sgh

/-- field `segment_group` — message_implementation_guide.py:29 -/
def segmentGroup : Sgh → Option PyStr
  | mk k _ _ => k

/-- field `opening_segment` — message_implementation_guide.py:31 -/
def openingSegment : Sgh → PyStr
  | mk _ o _ => o

/-- field `sub_hierarchy` — message_implementation_guide.py:33-35 -/
def subHierarchy : Sgh → Option (List Sgh)
  | mk _ _ s => s

mutual
/-- `SegmentGroupHierarchy.flattened` — message_implementation_guide.py:37-46 -/
def flattened : Sgh → List (Option PyStr × PyStr)
  | mk k o sub => [(k, o)] ++ flattenedOpt sub
/-- the `if self.sub_hierarchy is not None` of `flattened` — message_implementation_guide.py:43 -/
def flattenedOpt : Option (List Sgh) → List (Option PyStr × PyStr)
  | none => []
  | some l => flattenedList l
/-- the loop of `flattened` — message_implementation_guide.py:44-45 -/
def flattenedList : List Sgh → List (Option PyStr × PyStr)
  | [] => []
  | s :: l => flattened s ++ flattenedList l
end

mutual
/-- `SegmentGroupHierarchy.is_hierarchically_below` — message_implementation_guide.py:48-59 -/
def isHierarchicallyBelow : Sgh → Option PyStr → Bool
  | mk _ _ sub, key => isHierarchicallyBelowOpt sub key
/-- the `is None` test — message_implementation_guide.py:52-53 -/
def isHierarchicallyBelowOpt : Option (List Sgh) → Option PyStr → Bool
  | none, _ => false
  | some l, key => isHierarchicallyBelowList l key
/-- the loop — message_implementation_guide.py:54-59 -/
def isHierarchicallyBelowList : List Sgh → Option PyStr → Bool
  | [], _ => false
  | s :: l, key =>
    if s.segmentGroup = key then true
    else if isHierarchicallyBelow s key then true
    else isHierarchicallyBelowList l key
end

mutual
/-- `SegmentGroupHierarchy.sg_is_hierarchically_below` — message_implementation_guide.py:61-80 -/
def sgIsHierarchicallyBelow : Sgh → Option PyStr → Option PyStr → Bool
  | mk k o sub, x, y =>
    if x = y then false
    else if k = y ∧ x ∈ (flattened (mk k o sub)).map Prod.fst then true
    else sgIsHierarchicallyBelowOpt sub x y
/-- `self.sub_hierarchy or []` — message_implementation_guide.py:77 -/
def sgIsHierarchicallyBelowOpt : Option (List Sgh) → Option PyStr → Option PyStr → Bool
  | none, _, _ => false
  | some l, x, y => sgIsHierarchicallyBelowList l x y
/-- the loop — message_implementation_guide.py:77-80 -/
def sgIsHierarchicallyBelowList : List Sgh → Option PyStr → Option PyStr → Bool
  | [], _, _ => false
  | s :: l, x, y =>
    if sgIsHierarchicallyBelow s x y then true else sgIsHierarchicallyBelowList l x y
end

end Sgh
end Verif
