import Verif.Py.Xml
import Verif.Model.Navigation
/-!
# Model of `maus.reader.ahb_location_xml`
-/

namespace Verif

/-- `etree.SubElement(result, attr_name, ...)` for a value that is no list: a nil element for `None`, otherwise an element
with text — /repo/src/maus/reader/ahb_location_xml.py:62-66. The attribute `{xsi}nil` is serialised with the generated
prefix `ns0`. -/
def scalarElement (name : PyStr) : Option PyStr → PyRes Xml
  | none => .ok (.elem name [(py!"xmlns:ns0", py!"xsi"), (py!"ns0:nil", py!"true")] none [])
  | some s => if s.all isXmlChar then .ok (.elem name [] (some s) []) else .error .valueError

/-- `to_xml_element` for a layer (as dictionary) — ahb_location_xml.py:39-67 -/
def layerToXml (l : AhbLocationLayer) : PyRes Xml := do
  let key ← scalarElement py!"segment_group_key" l.segmentGroupKey
  let code ← scalarElement py!"opening_segment_code" (some l.openingSegmentCode)
  let qualifier ← scalarElement py!"opening_qualifier" l.openingQualifier
  pure (.elem py!"ahbLocationLayer" [] none [key, code, qualifier])

/-- the loop over the layers — ahb_location_xml.py:56-60 -/
def layersToXml : List AhbLocationLayer → PyRes (List Xml)
  | [] => .ok []
  | l :: ls => do
    let x ← layerToXml l
    let xs ← layersToXml ls
    pure (x :: xs)

/-- `to_xml_element` for a location; the fields in the order of `attrs.asdict` — ahb_location_xml.py:39-67 -/
def toXmlElement (l : AhbLocation) : PyRes Xml := do
  let layers ← layersToXml l.layers
  let code ← scalarElement py!"segment_code" l.segmentCode
  let dataElementId ← scalarElement py!"data_element_id" l.dataElementId
  let qualifier ← scalarElement py!"qualifier" l.qualifier
  pure (.elem py!"ahbLocation" [] none [.elem py!"layers" [] none layers, code, dataElementId, qualifier])

/-- the loop of `to_xml_elements` — ahb_location_xml.py:75-77 -/
def locationsToXml : List AhbLocation → PyRes (List Xml)
  | [] => .ok []
  | l :: ls => do
    let x ← toXmlElement l
    let xs ← locationsToXml ls
    pure (x :: xs)

/-- `to_xml_elements` — ahb_location_xml.py:70-78 -/
def toXmlElements (ls : List AhbLocation) : PyRes Xml := do
  let xs ← locationsToXml ls
  pure (.elem py!"ahbLocations" [] none xs)

/-- the test for a nil element — ahb_location_xml.py:84-86 -/
def isNil : XVal → Bool
  | .dict d => d.any fun p => py!"@ns".isPrefixOf p.1 && py!":nil".isSuffixOf p.1 && match p.2 with
    | .str s => s == py!"true"
    | _ => false
  | _ => false

/-- `_replace_nil_element_with_none` — ahb_location_xml.py:81-90; `raw_dict.items()` is an `AttributeError` for anything but
a dictionary -/
def replaceNil : XVal → PyRes (List (PyStr × XVal))
  | .dict d => .ok (d.map fun p => (p.1, if isNil p.2 then .none else p.2))
  | _ => .error .attributeError

/-- a keyword argument that has to be an `Optional[str]`; `matches_re` and `instance_of` raise a `TypeError` for other values
(serves ahb_location_xml.py:98, 102) -/
def strArg (d : List (PyStr × XVal)) (key : PyStr) (required : Bool) : PyRes (Option PyStr) :=
  match dictGet key d with
  | none => if required then .error .typeError else .ok none
  | some .none => .ok none
  | some (.str s) => .ok (some s)
  | some _ => .error .typeError

/-- a keyword argument with the validator `matches_re`, before the validators of the later fields run
(serves ahb_location_xml.py:98, 102) -/
def matchArg (d : List (PyStr × XVal)) (key : PyStr) (required : Bool) (r : Re) : PyRes (Option PyStr) := do
  let v ← strArg d key required
  if optMatches r v then pure v else .error .valueError

/-- `AhbLocationLayer(**sanitized_values)`: unknown and missing arguments are a `TypeError` before any validator runs; the
validators run in the order of the fields — ahb_location_xml.py:98 -/
def layerFromDict (d : List (PyStr × XVal)) : PyRes AhbLocationLayer :=
  if d.any fun p => ![py!"segment_group_key", py!"opening_segment_code", py!"opening_qualifier"].contains p.1 then
    .error .typeError
  else if [py!"segment_group_key", py!"opening_segment_code", py!"opening_qualifier"].any fun k => (dictGet k d).isNone then
    .error .typeError
  else do
    let key ← matchArg d py!"segment_group_key" true sgKeyRe
    let code ← matchArg d py!"opening_segment_code" true segmentCode3Re
    let qualifier ← strArg d py!"opening_qualifier" true
    AhbLocationLayer.new key code qualifier

/-- the loop over `layer_dicts` — ahb_location_xml.py:96-99 -/
def layersFromValues : List XVal → PyRes (List AhbLocationLayer)
  | [] => .ok []
  | v :: vs => do
    let d ← replaceNil v
    let l ← layerFromDict d
    let ls ← layersFromValues vs
    pure (l :: ls)

/-- `_xml_dict_to_location` — ahb_location_xml.py:93-102. Iterating over a single layer (a dictionary, not a list) yields its
keys, which are strings. -/
def xmlDictToLocation (v : XVal) : PyRes AhbLocation := do
  let layersValue ← v.subscript py!"layers"
  let layerDicts ← layersValue.subscript py!"ahbLocationLayer"
  let layers ← match layerDicts with
    | .list l => layersFromValues l
    | .dict d => layersFromValues (d.map fun p => .str p.1)
    | .str s => layersFromValues (s.map fun c => .str [c])
    | .none => .error .typeError
  let leftovers ← match v with
    | .dict d => replaceNil (.dict (d.filter fun p => p.1 ≠ py!"layers"))
    | _ => .error .typeError
  if leftovers.any fun p => ![py!"segment_code", py!"data_element_id", py!"qualifier"].contains p.1 then
    .error .typeError
  let code ← matchArg leftovers py!"segment_code" false segmentCode3Re
  let dataElementId ← matchArg leftovers py!"data_element_id" false dataElement4Re
  let qualifier ← strArg leftovers py!"qualifier" false
  AhbLocation.new layers code dataElementId qualifier

/-- `from_xml_element` — ahb_location_xml.py:106-117 -/
def fromXmlElement (x : Xml) : PyRes AhbLocation := do
  let v ← (XVal.dict (xmlParse x)).subscript py!"ahbLocation"
  xmlDictToLocation v

/-- the loop of `from_xml_elements` — ahb_location_xml.py:131-135 -/
def locationsFromValues : List XVal → PyRes (List AhbLocation)
  | [] => .ok []
  | v :: vs => do
    let l ← xmlDictToLocation v
    let ls ← locationsFromValues vs
    pure (l :: ls)

/-- `from_xml_elements` — ahb_location_xml.py:120-138 -/
def fromXmlElements (x : Xml) : PyRes (List AhbLocation) := do
  let v ← (XVal.dict (xmlParse x)).subscript py!"ahbLocations"
  let element ← v.subscript py!"ahbLocation"
  match element with
  | .list l => locationsFromValues l
  | .dict d => do
    let l ← xmlDictToLocation (.dict d)
    pure [l]
  | _ => .error .valueError

end Verif
