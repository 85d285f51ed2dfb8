import Verif.Proofs.White
import Verif.Model.Matching
import Verif.Spec.Deep
/-!
# Specification of `to_deep_ahb`: which groups, segments and data elements are created, in which order

No tree, no references: the located lines are read run by run; the only memory is the set of paths for which a group has
already been opened.
-/

namespace Verif

/-- a maximal run of consecutive lines with the same location (up to the qualifier) -/
abbrev Run := AhbLocation × List (AhbLine × AhbLocation)

namespace Run

/-- the lines of the run -/
def lines (r : Run) : List AhbLine := r.2.map Prod.fst

/-- none of the lines has a segment code -/
def isHeading (r : Run) : Bool := r.lines.all fun l => l.segmentCode.isNone

/-- some line has a data element -/
def hasDataElement (r : Run) : Bool := r.lines.any fun l => l.dataElement.isSome

/-- some line has an ahb expression -/
def hasExpression (r : Run) : Bool := r.lines.any fun l => l.ahbExpression.isSome

/-- the location of the run: without qualifier, except for a run of a single line -/
def location (r : Run) : AhbLocation :=
  match r.2 with
  | [(_, loc)] => loc
  | _ => r.1

/-- the stack found in the MIG: for the location of the run or else (more than one line) for that of the first line -/
def stack (reader : MigLookup) (r : Run) : Option EdifactStack :=
  match reader r.location with
  | .ok s => s
  | .error _ =>
    match r.2 with
    | (_, loc) :: _ :: _ => match reader loc with
      | .ok s => s
      | .error _ => none
    | _ => none

/-- the first non-empty ahb expression of the run -/
def firstExpression (r : Run) : Option PyStr := r.lines.findSome? fun l => l.ahbExpression.filter fun e => e ≠ []

/-- the path of the group that is opened by the run: first line and innermost layer have the same key, the last line is
the opening segment of the innermost layer, the MIG knows the location, no group has been opened for its path, and the
first line has an expression -/
def openedPath (reader : MigLookup) (used : List PyStr) (r : Run) : Option PyStr :=
  match r.lines.head?, r.lines.getLast?, r.location.layers.getLast?, r.stack reader with
  | some first, some last, some layer, some stack =>
    if first.segmentGroupKey = layer.segmentGroupKey ∧ last.segmentCode = some layer.openingSegmentCode ∧
        stack.toJsonPath ∉ used ∧ first.ahbExpression ≠ none then some stack.toJsonPath
    else none
  | _, _, _, _ => none

/-- the group that is opened by the run -/
def openedGroup (reader : MigLookup) (used : List PyStr) (r : Run) : Option DocItem :=
  match openedPath reader used r, r.lines.head? with
  | some path, some first => some (.group (some path) (trim (first.ahbExpression.getD [])) first.index)
  | _, _ => none

/-- the segment that is created for the run: the expression is the first one of the run, section name and index are those
of the first line, the discriminator is the path in the MIG or else the printed location -/
def createdSegment (reader : MigLookup) (posStr : AhbLocation → PyStr) (r : Run) : Option DocItem :=
  match r.firstExpression, r.lines.head? with
  | some e, some first =>
    some (.segment (some (match r.stack reader with
      | some s => s.toJsonPath
      | none => posStr r.location)) e first.index first.sectionName none)
  | _, _ => none

/-- the data element that is created for the run -/
def createdDataElement (reader : MigLookup) (r : Run) : Option DocItem :=
  if r.hasExpression then
    match mergeLinesWithSameDataElement r.lines (r.stack reader) with
    | .ok de => some (.dataElement de)
    | .error _ => none
  else none

/-- what is created for one run -/
def created (reader : MigLookup) (posStr : AhbLocation → PyStr) (used : List PyStr) (r : Run) : List DocItem :=
  if r.isHeading then []
  else if r.hasDataElement then (r.createdDataElement reader).toList
  else (r.openedGroup reader used).toList ++ (r.createdSegment reader posStr).toList

/-- the paths for which a group has been opened after the run -/
def usedAfter (reader : MigLookup) (used : List PyStr) (r : Run) : List PyStr :=
  if r.isHeading || r.hasDataElement then used else used ++ (r.openedPath reader used).toList

/-- something is created for the run -/
def isUsed (r : Run) : Bool :=
  !r.isHeading && (if r.hasDataElement then r.hasExpression else r.firstExpression.isSome)

end Run

/-- what is created for a sequence of runs, in this order -/
def createdItems (reader : MigLookup) (posStr : AhbLocation → PyStr) : List PyStr → List Run → List DocItem
  | _, [] => []
  | used, r :: rest => r.created reader posStr used ++ createdItems reader posStr (r.usedAfter reader used) rest

/-- the opening of a group: its path, the layers of its location and the layers of the last run before it for which
something has been created -/
structure Opening where
  path : PyStr
  layers : List AhbLocationLayer
  previous : Option (List AhbLocationLayer)
  deriving DecidableEq

/-- all openings of groups, in this order -/
def openings (reader : MigLookup) : List PyStr → Option (List AhbLocationLayer) → List Run → List Opening
  | _, _, [] => []
  | used, previous, r :: rest =>
    (if r.isHeading || r.hasDataElement then []
      else (r.openedPath reader used).toList.map fun path => ⟨path, r.location.layers, previous⟩) ++
    openings reader (r.usedAfter reader used) (if r.isUsed then some r.location.layers else previous) rest

/-- the premise of C19: the first group has one layer; every further group is opened from the layers of the group opened
before it, keeps a non-empty initial part of these layers and adds one new layer -/
def OneLayerAtATime (os : List Opening) : Prop :=
  (∀ o, os[0]? = some o → o.layers.length = 1) ∧
  ∀ n a b, os[n]? = some a → os[n + 1]? = some b →
    b.previous = some a.layers ∧
    ∃ outer x, outer ≠ [] ∧ b.layers = outer ++ [x] ∧ outer <+: a.layers ∧ ¬ b.layers <+: a.layers

/-- the runs of located lines -/
def runsOf (located : List (AhbLine × AhbLocation)) : List Run := groupBy (fun x => removeQualifier x.2) located

end Verif
