import Verif.Model.Ahb
/-!
# Model of `FlatAnwendungshandbuch` (`maus.models.anwendungshandbuch`): validators, segment groups, sorting
-/

namespace Verif

/-- `more_itertools.split_when(l, p)`, collected into a list: a new chunk starts at `y` whenever `p x y` holds for the
preceding element `x`; nothing is yielded for an empty list (serves anwendungshandbuch.py:242-244) -/
def splitWhen {α : Type} (p : α → α → Bool) : List α → List (List α)
  | [] => []
  | [x] => [[x]]
  | x :: y :: l =>
    if p x y then [x] :: splitWhen p (y :: l)
    else match splitWhen p (y :: l) with
      | [] => [[x]]
      | g :: gs => (x :: g) :: gs

/-- the literal `"Abschnitts-Kontrollsegment"` — /repo/src/maus/models/anwendungshandbuch.py:246 -/
def controlSection : PyStr := py!"Abschnitts-Kontrollsegment"

/-- `_remove_grouped_ahb_lines_containing_section_name` — anwendungshandbuch.py:226-232. In spite of its name it *keeps*
the groups that contain a line with the given section name. -/
def removeGroupedContaining (groups : List (List AhbLine)) (sectionName : PyStr) : List (List AhbLine) :=
  groups.filter fun goal => goal.any fun l => l.sectionName == some sectionName

/-- the predicate of `split_when` — anwendungshandbuch.py:243 -/
def noSgToSg (x y : AhbLine) : Bool := x.segmentGroupKey.isNone && y.segmentGroupKey.isSome

/-- `_check_that_nearly_all_lines_have_a_segment_group` — anwendungshandbuch.py:236-249 (`last(...)` in the error message
is applied to a chunk of `split_when`, which is never empty) -/
def checkNearlyAllHaveSg (lines : List AhbLine) : Bool :=
  let switches := splitWhen noSgToSg lines
  let switches := removeGroupedContaining switches controlSection
  !(switches.length > 2)

/-- `_data_element_pattern` — anwendungshandbuch.py:252 -/
def flatDataElementRe : Re :=
  .alt (.seq .bol (.seq (.rep 4 (.cls isDigit)) .eol))
    (.alt (.seq .bol (.seq (.rep 5 (.cls isDigit)) .eol))
      (.seq .bol (.seq (.plus (.cls fun c => isAZ c || isaz c)) (.seq (.rep 4 (.cls isDigit)) .eol))))

/-- `_segment_group_key_pattern` — anwendungshandbuch.py:269 -/
def flatSgRe : Re := .seq .bol (.seq (.str py!"SG") (.seq (.plus (.cls isDigit)) .eol))

/-- `_segment_code_pattern` — anwendungshandbuch.py:286 -/
def flatSegmentCodeRe : Re := .seq .bol (.seq (.plus (.cls isAZ)) .eol)

/-- the common shape of the three line checks: `None` passes, otherwise `pattern.match(value)` must not be `None`
— anwendungshandbuch.py:262-266, 277-283, 294-298 -/
def noneOrMatch (r : Re) : Option PyStr → Bool
  | none => true
  | some s => (r.pyMatch s).isSome

/-- `_check_that_line_has_either_none_or_d4_data_element`, `…_none_or_matching_sg`, `…_none_az_segment_code` in the order
of the `and_` validator — anwendungshandbuch.py:256-298, 314-322 -/
def AhbLine.flatOk (l : AhbLine) : Bool :=
  noneOrMatch flatDataElementRe l.dataElement && noneOrMatch flatSgRe l.segmentGroupKey
    && noneOrMatch flatSegmentCodeRe l.segmentCode

/-- the validator of the attribute `lines`; it runs when the object is created and on every assignment (attrs `define`):
first the iterable validator, then the member validators; all failures are `ValueError`s — anwendungshandbuch.py:312-328 -/
def FlatAhb.checkLines (lines : List AhbLine) : PyRes Unit :=
  if !checkNearlyAllHaveSg lines then .error .valueError
  else if !lines.all AhbLine.flatOk then .error .valueError
  else .ok ()

/-- `FlatAnwendungshandbuch(meta=..., lines=...)` — anwendungshandbuch.py:301-328 -/
def FlatAhb.new (m : AhbMetaInformation) (lines : List AhbLine) : PyRes FlatAhb := do
  FlatAhb.checkLines lines
  pure { ahbMeta := m, lines := lines }

/-- loop of `_get_available_segment_groups` with the accumulator `result` — anwendungshandbuch.py:344-349 -/
def availableSegmentGroups (result : List (Option PyStr)) : List AhbLine → List (Option PyStr)
  | [] => result
  | l :: ls =>
    if l.segmentGroupKey ∉ result then availableSegmentGroups (result ++ [l.segmentGroupKey]) ls
    else availableSegmentGroups result ls

/-- `FlatAnwendungshandbuch.get_segment_groups` — anwendungshandbuch.py:330-349 -/
def FlatAhb.getSegmentGroups (f : FlatAhb) : List (Option PyStr) := availableSegmentGroups [] f.lines

/-- sort key of the first sort: `x.segment_group_key or ""` — anwendungshandbuch.py:390 -/
def sgKeyOrEmpty (l : AhbLine) : PyStr := if truthy l.segmentGroupKey then l.segmentGroupKey.getD [] else []

/-- `_sorted_lines_by_segment_groups` — anwendungshandbuch.py:357-392. Python's `sorted` and `list.sort` are stable
sorts, as is `List.mergeSort`; strings are compared by code points. `sg_order.index` raises a `ValueError` if the key of
a line is missing (the keys of all lines are computed). -/
def sortedLinesBySegmentGroups (lines : List AhbLine) (sgOrder : List (Option PyStr)) : PyRes (List AhbLine) :=
  let result := lines.mergeSort fun a b => decide (sgKeyOrEmpty a ≤ sgKeyOrEmpty b)
  if result.all fun l => decide (l.segmentGroupKey ∈ sgOrder) then
    .ok (result.mergeSort fun a b =>
      decide (sgOrder.idxOf a.segmentGroupKey ≤ sgOrder.idxOf b.segmentGroupKey))
  else .error .valueError

/-- `FlatAnwendungshandbuch.sort_lines_by_segment_groups` — anwendungshandbuch.py:351-355; the assignment to `self.lines`
runs the validators again. -/
def FlatAhb.sortLinesBySegmentGroups (f : FlatAhb) : PyRes FlatAhb := do
  let lines ← sortedLinesBySegmentGroups f.lines f.getSegmentGroups
  FlatAhb.checkLines lines
  pure { f with lines := lines }

end Verif
