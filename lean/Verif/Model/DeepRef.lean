import Verif.Model.Deep
import Verif.Model.Transformation
/-!
# `get_all_value_pools` by reference

`Model/Deep.lean` models the search by the values that are found. `transform_all_value_pools` modifies the objects that are
found, so it matters which of several equal objects (or objects with the same discriminator) is returned. Here an object is
represented by its place in the tree and its content: the place tells objects apart (`is`), the content is what `==` and `in`
compare. The functions follow the code once more, with the predicates `lambda _: True` that `get_all_value_pools` uses.
-/

namespace Verif

/-- the place of a data element: the indices that lead to its group, the index of the segment in the group and the index of the
data element in the segment (serves anwendungshandbuch.py:513-536) -/
structure ElementAddr where
  group : List Nat
  segment : Nat
  element : Nat
  deriving DecidableEq

/-- a reference to a segment group (serves anwendungshandbuch.py:471-484) -/
abbrev GroupRef := List Nat × SegmentGroup
/-- a reference to a segment (serves anwendungshandbuch.py:486-504) -/
abbrev SegmentRef := (List Nat × Nat) × Segment
/-- a reference to a data element (serves anwendungshandbuch.py:513-536) -/
abbrev ElementRef := ElementAddr × DataElement

namespace SegmentGroup
mutual
/-- `SegmentGroup.find_segments`, recursively, without a predicate; `p` is the place of the group
— /repo/src/maus/models/edifact_components.py:478-492 -/
def findSegmentRefs (p : List Nat) : SegmentGroup → List SegmentRef
  | mk _ _ _ s gs =>
    (match s with
      | none => []
      | some l => l.zipIdx.map fun x => ((p, x.2), x.1)) ++
    findSegmentRefsOpt p gs
/-- `self.segment_groups is not None` (serves edifact_components.py:478-492) -/
def findSegmentRefsOpt (p : List Nat) : Option (List SegmentGroup) → List SegmentRef
  | none => []
  | some l => findSegmentRefsList p 0 l
/-- the loop over the sub groups (serves edifact_components.py:478-492) -/
def findSegmentRefsList (p : List Nat) (n : Nat) : List SegmentGroup → List SegmentRef
  | [] => []
  | g :: l => findSegmentRefs (p ++ [n]) g ++ findSegmentRefsList p (n + 1) l
end

mutual
/-- `DeepAnwendungshandbuch._query_segment_group` — /repo/src/maus/models/anwendungshandbuch.py:454-469 -/
def queryRefs (p : List Nat) : SegmentGroup → List GroupRef
  | mk d e i s gs => [(p, mk d e i s gs)] ++ queryRefsOpt p gs
/-- `segment_group.segment_groups is not None` (serves anwendungshandbuch.py:454-469) -/
def queryRefsOpt (p : List Nat) : Option (List SegmentGroup) → List GroupRef
  | none => []
  | some l => queryRefsList p 0 l
/-- the loop over the sub groups (serves anwendungshandbuch.py:454-469) -/
def queryRefsList (p : List Nat) (n : Nat) : List SegmentGroup → List GroupRef
  | [] => []
  | g :: l => queryRefs (p ++ [n]) g ++ queryRefsList p (n + 1) l
end
end SegmentGroup

/-- `for x in xs: if x not in result: result.append(x)`: `in` compares contents — anwendungshandbuch.py:481-483 -/
def appendNewRefs (result xs : List GroupRef) : List GroupRef :=
  xs.foldl (fun result x => if x.2 ∈ result.map Prod.snd then result else result ++ [x]) result

/-- loop body of `find_segment_groups` for the line with index `line.2` — anwendungshandbuch.py:477-483 -/
def groupRefsStep (result : List GroupRef) (line : SegmentGroup × Nat) : List GroupRef :=
  let result := match line.1.segmentGroups with
    | none => result
    | some gs => gs.zipIdx.foldl (fun result g => result ++ g.1.queryRefs [line.2, g.2]) result
  appendNewRefs result (line.1.queryRefs [line.2])

/-- `DeepAnwendungshandbuch.find_segment_groups` — anwendungshandbuch.py:471-484 -/
def DeepAhb.groupRefs (a : DeepAhb) : List GroupRef := a.lines.zipIdx.foldl groupRefsStep []

/-- `DeepAnwendungshandbuch.find_segments` — anwendungshandbuch.py:486-504 -/
def DeepAhb.segmentRefs (a : DeepAhb) : List SegmentRef :=
  let result := a.groupRefs.flatMap fun g => g.2.findSegmentRefs g.1
  result ++ a.lines.zipIdx.flatMap fun line =>
    match line.1.segments with
    | none => []
    | some l => l.zipIdx.map fun x => (([line.2], x.2), x.1)

/-- `Segment.get_all_value_pools` — edifact_components.py:422-427 -/
def segmentPoolRefs (s : SegmentRef) : List ElementRef :=
  (s.2.dataElements.zipIdx.filter fun x => x.1.isValuePool).map fun x => (⟨s.1.1, s.1.2, x.2⟩, x.1)

/-- `SegmentGroup.get_all_value_pools` — edifact_components.py:494-502 -/
def groupPoolRefs (g : GroupRef) : List ElementRef := (g.2.findSegmentRefs g.1).flatMap segmentPoolRefs

/-- `result` and `added_discriminators` of `get_all_value_pools` — anwendungshandbuch.py:518-519 -/
structure PoolRefAcc where
  result : List ElementRef := []
  added : List (Option PyStr) := []

/-- `add_to_result` — anwendungshandbuch.py:522-528 -/
def addRefToResult (acc : PoolRefAcc) (valuePool : ElementRef) : PoolRefAcc :=
  if valuePool.2.discriminator ∈ acc.added then acc
  else if valuePool.2 ∉ acc.result.map Prod.snd then
    { result := acc.result ++ [valuePool], added := valuePool.2.discriminator :: acc.added }
  else acc

/-- `DeepAnwendungshandbuch.get_all_value_pools` — anwendungshandbuch.py:513-536 -/
def DeepAhb.getAllValuePoolRefs (a : DeepAhb) : List ElementRef :=
  let acc := a.segmentRefs.foldl (fun acc s => (segmentPoolRefs s).foldl addRefToResult acc) {}
  let acc := a.groupRefs.foldl (fun acc g => (groupPoolRefs g).foldl addRefToResult acc) acc
  acc.result

/-! ## the deep AHB after objects have been modified -/

/-- a segment with its data elements replaced by what is now found at their places (serves transformation.py:149-176) -/
def Segment.atPlaces (f : ElementAddr → DataElement → DataElement) (p : List Nat) (s : Segment × Nat) : Segment :=
  { s.1 with dataElements := s.1.dataElements.zipIdx.map fun x => f ⟨p, s.2, x.2⟩ x.1 }

namespace SegmentGroup
mutual
/-- a group with its data elements replaced by what is now found at their places (serves transformation.py:149-176) -/
def atPlaces (f : ElementAddr → DataElement → DataElement) (p : List Nat) : SegmentGroup → SegmentGroup
  | mk d e i s gs => mk d e i (s.map fun ss => ss.zipIdx.map (Segment.atPlaces f p)) (atPlacesOpt f p gs)
/-- the same for the optional sub groups (serves transformation.py:149-176) -/
def atPlacesOpt (f : ElementAddr → DataElement → DataElement) (p : List Nat) :
    Option (List SegmentGroup) → Option (List SegmentGroup)
  | none => none
  | some l => some (atPlacesList f p 0 l)
/-- the same for every group of a list (serves transformation.py:149-176) -/
def atPlacesList (f : ElementAddr → DataElement → DataElement) (p : List Nat) (n : Nat) : List SegmentGroup → List SegmentGroup
  | [] => []
  | g :: l => atPlaces f (p ++ [n]) g :: atPlacesList f p (n + 1) l
end
end SegmentGroup

/-- what is now found at a place: the new content of the object, if it is one of those that have been modified (serves transformation.py:149-176) -/
def contentAt (refs : List ElementRef) (after : List DataElement) (place : ElementAddr) (de : DataElement) : DataElement :=
  (((refs.map Prod.fst).zip after).find? fun x => x.1 = place).elim de Prod.snd

/-- the deep AHB after the objects `refs` have got the contents `after`: every other object is as before
— /repo/src/maus/transformation.py:149-176 -/
def DeepAhb.withPoolRefs (a : DeepAhb) (refs : List ElementRef) (after : List DataElement) : DeepAhb :=
  { a with lines := SegmentGroup.atPlacesList (contentAt refs after) [] 0 a.lines }

/-- the deep AHB in a state of `transform_all_value_pools`: the objects returned by `get_all_value_pools` have the contents
their tasks have given them — transformation.py:154-176 -/
def TopState.ahbNow {A D : Type} (s : TopState A D) (before : DeepAhb) : DeepAhb :=
  before.withPoolRefs before.getAllValuePoolRefs (s.tasks.map PoolTask.pool)

end Verif
