import Verif
open Verif
def o : Option PyStr → Json := dumpStr
def locJ (l : AhbLocation) : Json := .arr [.arr (l.layers.map fun y => .arr [o y.segmentGroupKey, o y.openingSegmentCode, o y.openingQualifier]), o l.segmentCode, o l.dataElementId, o l.qualifier]
def chJ : Change → Json := fun c => .str (match c with | .stay => py!"@STAY" | .moveToNeighbourSameKey => py!"@NS" | .moveToNeighbourDifferentKey => py!"@ND" | .diveIntoSubGroup => py!"@DIVE" | .leaveToParent => py!"@LP" | .leaveToParentAndDive => py!"@LPD")
def main : IO Unit := do
  let f ← IO.FS.readFile "/tmp/conformance/flat.json"
  let s ← IO.FS.readFile "/tmp/conformance/sgh.json"
  let r : PyRes Json := do
    let flat ← (jsonLoads f.toList).bind FlatAhb.load
    let sgh ← (jsonLoads s.toList).bind Sgh.load
    let ls ← determineLocations sgh flat.lines
    let cs ← determineHierarchyChanges flat.lines sgh
    pure (.arr ((ls.zip cs).map fun (a,b) => .arr [locJ a.2, chJ b.2]))
  match r with
  | .ok j => IO.println (String.ofList (jsonDumps {indent := none, ensureAscii := true, sortKeys := false} j))
  | .error e => IO.println (reprStr e)
