import Verif.Model.Flat
/-!
# Model: editing a flat AHB in place

The classes `AhbLine` and `FlatAnwendungshandbuch` are `attrs.define`d: an assignment to an attribute runs the validator of this attribute
first and does not take place if it raises. A `FlatAnwendungshandbuch` holds a list of references to `AhbLine`s: an assignment to an
attribute of a line takes effect wherever the line is used, and neither it nor a change of the list in place (`append`, `remove`, ...)
runs the validators of the handbook.
-/

namespace Verif

/-- an assignment to an attribute of an `AhbLine` (`None` or a value of the type of the attribute; another type is a `TypeError` and
changes nothing) — /repo/src/maus/models/anwendungshandbuch.py:37-99 -/
inductive LineAttr where
  | guid (v : Option (Fin (2 ^ 128)))
  | segmentGroupKey (v : Option PyStr)
  | segmentCode (v : Option PyStr)
  | dataElement (v : Option PyStr)
  | segmentId (v : Option PyStr)
  | valuePoolEntry (v : Option PyStr)
  | name (v : Option PyStr)
  | ahbExpression (v : Option PyStr)
  | conditions (v : Option PyStr)
  | sectionName (v : Option PyStr)
  | index (v : Option Int)

/-- the validator of the attribute; those of the other attributes check the type only — anwendungshandbuch.py:77-83, 99 -/
def LineAttr.check : LineAttr → Bool
  | ahbExpression v => v.isNone || isNotBlank v
  | index v => match v with
    | none => true
    | some i => decide (0 ≤ i)
  | _ => true

/-- the line with the new value of the attribute (serves anwendungshandbuch.py:37-99) -/
def LineAttr.set (l : AhbLine) : LineAttr → AhbLine
  | guid v => { l with guid := v.map (·.val) }
  | segmentGroupKey v => { l with segmentGroupKey := v }
  | segmentCode v => { l with segmentCode := v }
  | dataElement v => { l with dataElement := v }
  | segmentId v => { l with segmentId := v }
  | valuePoolEntry v => { l with valuePoolEntry := v }
  | name v => { l with name := v }
  | ahbExpression v => { l with ahbExpression := v }
  | conditions v => { l with conditions := v }
  | sectionName v => { l with sectionName := v }
  | index v => { l with index := v }

/-- `line.attribute = value` (serves anwendungshandbuch.py:31-99) -/
def AhbLine.assign (l : AhbLine) (a : LineAttr) : PyRes AhbLine := if a.check then .ok (a.set l) else .error .valueError

/-- a `FlatAnwendungshandbuch` and the `AhbLine`s around: `heap` are all lines there are (including those that are created later on),
`refs` the ones in the attribute `lines`, in this order — anwendungshandbuch.py:301-328 -/
structure FlatObj where
  ahbMeta : AhbMetaInformation
  heap : Nat → AhbLine
  refs : List Nat

/-- the lines (serves anwendungshandbuch.py:312-328) -/
def FlatObj.lines (f : FlatObj) : List AhbLine := f.refs.map f.heap

/-- `_sorted_lines_by_segment_groups` for references to lines (see `sortedLinesBySegmentGroups`) — anwendungshandbuch.py:357-392 -/
def sortedRefsBySegmentGroups (line : Nat → AhbLine) (refs : List Nat) (sgOrder : List (Option PyStr)) : PyRes (List Nat) :=
  let result := refs.mergeSort fun a b => decide (sgKeyOrEmpty (line a) ≤ sgKeyOrEmpty (line b))
  if result.all fun r => decide ((line r).segmentGroupKey ∈ sgOrder) then
    .ok (result.mergeSort fun a b =>
      decide (sgOrder.idxOf (line a).segmentGroupKey ≤ sgOrder.idxOf (line b).segmentGroupKey))
  else .error .valueError

/-- a step that changes a flat AHB or one of the lines (serves anwendungshandbuch.py:31-99, 301-355) -/
inductive FlatEdit where
  /-- an assignment to an attribute of the line `r` -/
  | assign (r : Nat) (a : LineAttr)
  /-- `flat.lines = [...]` -/
  | setLines (refs : List Nat)
  /-- any change of the list `flat.lines` in place -/
  | mutate (refs : List Nat)
  /-- `flat.sort_lines_by_segment_groups()` -/
  | sort

/-- the state after the step, and the exception if there is one — anwendungshandbuch.py:31-99, 301-355 -/
def FlatObj.apply (f : FlatObj) : FlatEdit → FlatObj × Option Exc
  | .assign r a => match (f.heap r).assign a with
    | .ok l => ({ f with heap := fun i => if i = r then l else f.heap i }, none)
    | .error e => (f, some e)
  | .setLines refs => match FlatAhb.checkLines (refs.map f.heap) with
    | .ok _ => ({ f with refs := refs }, none)
    | .error e => (f, some e)
  | .mutate refs => ({ f with refs := refs }, none)
  | .sort => match sortedRefsBySegmentGroups f.heap f.refs (availableSegmentGroups [] f.lines) with
    | .error e => (f, some e)
    | .ok refs => match FlatAhb.checkLines (refs.map f.heap) with
      | .ok _ => ({ f with refs := refs }, none)
      | .error e => (f, some e)

/-- the state after some steps; exceptions are caught in between (serves anwendungshandbuch.py:31-99, 301-355) -/
def FlatObj.run (f : FlatObj) (edits : List FlatEdit) : FlatObj := edits.foldl (fun f e => (f.apply e).1) f

end Verif
