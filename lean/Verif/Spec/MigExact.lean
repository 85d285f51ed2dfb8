import Verif.Spec.MigXml
/-!
# Specification: lookups that stumble over an attribute that cannot be read (C111)
-/

namespace Verif

/-- the attribute of the element is there but cannot be read: its list of qualifiers ends with a pipe -/
def Unreadable (attribKey : PyStr) (e : Xml) : Prop := ∃ body, dictGet attribKey e.attrib = some body ∧ DanglingPipe body

/-- at least two children have the property -/
def SeveralChildren (P : Xml → Prop) (parent : Xml) : Prop :=
  ∃ (i j : Nat) (c d : Xml), i ≠ j ∧ parent.children[i]? = some c ∧ parent.children[j]? = some d ∧ P c ∧ P d

/-- on the way down along the layers (see `LayerWalk`) there are several classes with the right `ref`, and the `key` of one of them, be
it before or after the one that is looked for, cannot be read -/
inductive LayerCrash : Xml → List AhbLocationLayer → Prop
  | here {parent c : Xml} {layer : AhbLocationLayer} {layers : List AhbLocationLayer}
      (several : SeveralChildren (IsClass layer.ref) parent) (hc : c ∈ parent.children) (hr : IsClass layer.ref c)
      (hu : Unreadable py!"key" c) : LayerCrash parent (layer :: layers)
  | deeper {parent child : Xml} {layer : AhbLocationLayer} {layers : List AhbLocationLayer} {i : Nat}
      (hc : parent.children[i]? = some child)
      (hi : OnlyChild (IsClass layer.ref) parent i ∨
        FirstOfMany (IsClass layer.ref) (Mentions py!"key" layer.openingQualifier) parent i)
      (rest : LayerCrash child layers) : LayerCrash parent (layer :: layers)

/-- there are several classes for the segment, and the `key` of one of them cannot be read before one that mentions the opening qualifier
has been found -/
def SegmentCrash (code q : Option PyStr) (parent : Xml) : Prop :=
  ∃ c before e after, code = some c ∧ c ≠ py!"UNH" ∧ SeveralChildren (IsClass c) parent ∧ parent.children = before ++ e :: after ∧
    IsClass c e ∧ Unreadable py!"key" e ∧ ∀ d ∈ before, IsClass c d → ¬ Mentions py!"key" q d

/-- there are several fields with the id, there is a qualifier, and the `ref` of one of the fields cannot be read before two fields that
mention the qualifier have been found -/
def FieldCrash (id : PyStr) (q : Option PyStr) (parent : Xml) : Prop :=
  SeveralChildren (IsField id) parent ∧ q ≠ none ∧
  ∃ before e after, parent.children = before ++ e :: after ∧ IsField id e ∧ Unreadable py!"ref" e ∧
    ∀ b1 d b2, before = b1 ++ d :: b2 → IsField id d → Mentions py!"ref" q d → ∀ d' ∈ b2, IsField id d' → ¬ Mentions py!"ref" q d'

/-- a lookup below the message class stumbles over an attribute that cannot be read: at a layer, at the segment or at the field -/
def LookupCrash (msg : Xml) (loc : AhbLocation) : Prop :=
  LayerCrash msg loc.layers ∨
  ∃ layer p1 class_, loc.layers.getLast? = some layer ∧ LayerWalk msg loc.layers p1 class_ ∧
    (SegmentCrash loc.segmentCode layer.openingQualifier class_ ∨
     ∃ d p2 seg, loc.dataElementId = some d ∧ SegmentWalk loc.segmentCode layer.openingQualifier class_ p2 seg ∧
       FieldCrash d loc.qualifier seg)

end Verif
