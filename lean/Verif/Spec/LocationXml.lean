import Verif.Proofs.White
import Verif.Model.LocationXml
/-!
# Specification vocabulary for the XML form of locations
-/

namespace Verif

/-- the constructors accept the location and its layers (so it can exist), and it is no internal pseudo location -/
def AhbLocation.Constructed (l : AhbLocation) : Prop :=
  AhbLocation.new l.layers l.segmentCode l.dataElementId l.qualifier = .ok l ∧
    ∀ x ∈ l.layers, AhbLocationLayer.new x.segmentGroupKey (some x.openingSegmentCode) x.openingQualifier = .ok x

/-- the qualifier contains no control characters (lxml refuses them) -/
def AhbLocation.XmlText (l : AhbLocation) : Prop := ∀ q, l.qualifier = some q → ∀ c ∈ q, isXmlChar c = true

/-- a text that xmltodict returns unchanged: not blank and without leading or trailing whitespace -/
def Trimmed (s : PyStr) : Prop := s ≠ [] ∧ trim s = s

/-- what remains of an optional text: surrounding whitespace is lost, blank texts become `None` -/
def trimText (o : Option PyStr) : Option PyStr :=
  match o with
  | none => none
  | some s => if trim s = [] then none else some (trim s)

/-- the location with trimmed texts -/
def AhbLocation.trimmed (l : AhbLocation) : AhbLocation :=
  { l with layers := l.layers.map (fun x => { x with openingQualifier := trimText x.openingQualifier }),
           qualifier := trimText l.qualifier }

end Verif
