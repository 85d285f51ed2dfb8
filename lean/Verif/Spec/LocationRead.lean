import Mathlib.Data.List.Forall2
import Verif.Spec.LocationXml
import Verif.Spec.XmlText
/-!
# Specification: which XML elements describe a location
-/

namespace Verif

mutual
/-- all elements are named as XML requires -/
inductive NamedXml : Xml → Prop
  | mk {tag : PyStr} {attrib : List (PyStr × PyStr)} {text : Option PyStr} {children : List Xml} (ht : XmlName tag)
      (hc : NamedXmls children) : NamedXml (.elem tag attrib text children)
/-- the same for lists -/
inductive NamedXmls : List Xml → Prop
  | nil : NamedXmls []
  | cons {x : Xml} {xs : List Xml} (h : NamedXml x) (hs : NamedXmls xs) : NamedXmls (x :: xs)
end

/-- the element is marked as nil: it has an attribute `ns…:nil` with the value "true" -/
def MarkedNil (e : Xml) : Prop := ∃ mid, (py!"ns" ++ mid ++ py!":nil", py!"true") ∈ e.attrib

/-- the optional text an element stands for: none if it is marked as nil; otherwise it may have neither attributes nor
children, and the text counts without surrounding white space (none if nothing remains) -/
def OptionalText (e : Xml) (v : Option PyStr) : Prop :=
  MarkedNil e ∧ v = none ∨ ¬ MarkedNil e ∧ e.attrib = [] ∧ e.children = [] ∧ v = trimText e.text

/-- the child with the given name stands for the value -/
def FieldOf (e : Xml) (name : PyStr) (v : Option PyStr) : Prop := ∃ c ∈ e.children, c.tag = name ∧ OptionalText c v

/-- an element without attributes and without text whose children have different names, all of them from the list -/
def RecordOf (names : List PyStr) (e : Xml) : Prop :=
  e.attrib = [] ∧ trimText e.text = none ∧ (e.children.map Xml.tag).Nodup ∧ ∀ c ∈ e.children, c.tag ∈ names

/-- an element that describes a layer: three fields that the constructor accepts -/
def LayerElement (e : Xml) (l : AhbLocationLayer) : Prop :=
  RecordOf [py!"segment_group_key", py!"opening_segment_code", py!"opening_qualifier"] e ∧
    ∃ key code qualifier, FieldOf e py!"segment_group_key" key ∧ FieldOf e py!"opening_segment_code" code ∧
      FieldOf e py!"opening_qualifier" qualifier ∧ AhbLocationLayer.new key code qualifier = .ok l

/-- a field that may be missing -/
def OptionalFieldOf (e : Xml) (name : PyStr) (v : Option PyStr) : Prop :=
  FieldOf e name v ∨ (∀ c ∈ e.children, c.tag ≠ name) ∧ v = none

/-- the value of an element `ahbLocation` that describes a location: at least two layers -/
def LocationFields (e : Xml) (l : AhbLocation) : Prop :=
  RecordOf [py!"layers", py!"segment_code", py!"data_element_id", py!"qualifier"] e ∧
    (∃ c ∈ e.children, c.tag = py!"layers" ∧ 2 ≤ l.layers.length ∧
      List.Forall₂ LayerElement (c.children.filter fun x => x.tag = py!"ahbLocationLayer") l.layers) ∧
    ∃ code dataElementId qualifier, OptionalFieldOf e py!"segment_code" code ∧
      OptionalFieldOf e py!"data_element_id" dataElementId ∧ OptionalFieldOf e py!"qualifier" qualifier ∧
      AhbLocation.new l.layers code dataElementId qualifier = .ok l

/-- an element that describes a location -/
def LocationElement (e : Xml) (l : AhbLocation) : Prop := e.tag = py!"ahbLocation" ∧ LocationFields e l

/-- an element that describes a list of locations (other children are ignored) -/
def LocationsElement (e : Xml) (ls : List AhbLocation) : Prop :=
  e.tag = py!"ahbLocations" ∧ ls ≠ [] ∧ List.Forall₂ LocationElement (e.children.filter fun x => x.tag = py!"ahbLocation") ls

end Verif
