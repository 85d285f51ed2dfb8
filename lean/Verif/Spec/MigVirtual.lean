import Verif.Py.Xml
/-!
# Specification: unpacking virtual groups
-/

namespace Verif

/-- a `class` with `meta.virtual="true"` -/
def IsVirtualGroup (e : Xml) : Prop := e.tag = py!"class" ∧ dictGet py!"meta.virtual" e.attrib = some py!"true"

/-- what the documentation of `_unpack_virtual_groups` says: each virtual group is replaced by its children, in its place -/
inductive UnpackedInPlace : List Xml → List Xml → Prop
  | nil : UnpackedInPlace [] []
  | group {v : Xml} {cs ds : List Xml} (h : IsVirtualGroup v) (hs : UnpackedInPlace cs ds) : UnpackedInPlace (v :: cs) (v.children ++ ds)
  | other {c : Xml} {cs ds : List Xml} (h : ¬ IsVirtualGroup c) (hs : UnpackedInPlace cs ds) : UnpackedInPlace (c :: cs) (c :: ds)

/-- the first element is the second one or is below it -/
inductive Xml.InTree : Xml → Xml → Prop
  | root (e : Xml) : InTree e e
  | child {e c p : Xml} (h : InTree e c) (hc : c ∈ p.children) : InTree e p

/-- an element without its children -/
structure Xml.Label where
  tag : PyStr
  attrib : List (PyStr × PyStr)
  text : Option PyStr
  deriving DecidableEq

/-- the label of a virtual group -/
def Xml.Label.isVirtual (l : Xml.Label) : Bool := l.tag = py!"class" ∧ dictGet py!"meta.virtual" l.attrib = some py!"true"

mutual
/-- the labels of all elements of a tree, in the order of the document -/
def Xml.labels : Xml → List Xml.Label
  | .elem tag attrib text children => ⟨tag, attrib, text⟩ :: Xml.labelsOf children
/-- the labels of all elements of a list of trees -/
def Xml.labelsOf : List Xml → List Xml.Label
  | [] => []
  | c :: cs => Xml.labels c ++ Xml.labelsOf cs
end

end Verif
