import Verif.Spec.Requirements
import Verif.Spec.Matching
/-!
# Specification vocabulary: the requirements on segment groups

The heading of a segment group is a line with a segment group key, but without segment code and data element. Its expression says under
which condition the group has to be present.
-/

namespace Verif

/-- the expression a line of a flat AHB states for a segment group -/
def AhbLine.groupRequirement? (l : AhbLine) : Option PyStr :=
  if l.segmentGroupKey ≠ none ∧ l.segmentCode = none ∧ l.dataElement = none then l.ahbExpression.map trim else none

/-- what a segment group of a deep AHB says about itself: discriminator, expression and index of a line -/
structure GroupNote where
  discriminator : PyStr
  expression : PyStr
  index : Option Int
  deriving DecidableEq

/-- the note of a segment group of a deep AHB -/
def DocItem.groupNote? : DocItem → Option GroupNote
  | .group (some d) e i => some ⟨d, e, i⟩
  | _ => none

/-- the JSON path in the template for the lines at one place: the template is asked for the place without qualifier if there are several
lines, then for the location of the first line -/
def placePath (reader : MigLookup) (part : List (AhbLine × AhbLocation)) : Option PyStr :=
  let ask (loc : AhbLocation) : Option PyStr := match reader loc with
    | .ok (some s) => some s.toJsonPath
    | _ => none
  match part with
  | [] => none
  | [(_, loc)] => ask loc
  | (_, loc) :: _ :: _ =>
    match reader { layers := loc.layers, segmentCode := loc.segmentCode, dataElementId := loc.dataElementId, qualifier := none } with
    | .ok (some s) => some s.toJsonPath
    | .ok none => none
    | .error _ => ask loc

/-- the note of the group which the lines at one place ask for: they describe a segment (some segment code, no data element), it is the
opening segment of the innermost layer of their location, which belongs to the group of the first line; the first line has an expression;
the template knows the place -/
def askedGroup (reader : MigLookup) (part : List (AhbLine × AhbLocation)) : Option GroupNote :=
  if (part.all fun x => x.1.segmentCode = none) || (part.any fun x => x.1.dataElement ≠ none) then none
  else match part.head?, part.getLast?, placePath reader part with
    | some first, some last, some path =>
      match first.2.layers.getLast?, first.1.ahbExpression with
      | some layer, some e =>
        if layer.segmentGroupKey = first.1.segmentGroupKey ∧ last.1.segmentCode = some layer.openingSegmentCode then
          some ⟨path, trim e, first.1.index⟩
        else none
      | _, _ => none
    | _, _, _ => none

/-- the first note for each discriminator -/
def firstNotes : List GroupNote → List GroupNote
  | [] => []
  | x :: xs => x :: (firstNotes xs).filter fun y => y.discriminator ≠ x.discriminator

end Verif
