import Verif.Py.XmlNs
import Verif.Spec.XmlText
/-!
# Names in XML namespaces

The relation between a document as it is written and the document with expanded names. `ns` says which namespace a prefix stands for
at a place of the document (`ns []` is the default namespace; `none` if there is none).
-/

namespace Verif

/-- a name without colon -/
def NoColon (s : PyStr) : Prop := ':' ∉ s

/-- the local part of a name may not begin with a digit, a hyphen or a dot -/
def LocalStart (s : PyStr) : Prop := ∃ c t, s = c :: t ∧ c ∉ py!"0123456789-."

/-- an attribute that declares the namespace `uri` for the prefix `p` (`[]`: the default namespace) -/
inductive Declares : PyStr × PyStr → PyStr → PyStr → Prop
  | default {uri : PyStr} : Declares (py!"xmlns", uri) [] uri
  | prefixed {p uri : PyStr} (h : NoColon p) (hs : LocalStart p) : Declares (py!"xmlns:" ++ p, uri) p uri

/-- which declarations are allowed: only the default namespace may be undeclared, the namespaces of `xml` and `xmlns` are reserved -/
def DeclarationOk (validUri : PyStr → Bool) (p uri : PyStr) : Prop :=
  (p = py!"xml" ∧ uri = xmlUri) ∨ (p = [] ∧ uri = []) ∨
  (p ≠ py!"xml" ∧ p ≠ py!"xmlns" ∧ uri ≠ [] ∧ uri ≠ xmlUri ∧ uri ≠ xmlnsUri ∧ validUri uri = true)

/-- the namespaces at an element with the given attributes, if those of the element above are `ns` -/
def InScope (ns : PyStr → Option PyStr) (attrib : List (PyStr × PyStr)) (ns' : PyStr → Option PyStr) : Prop :=
  ∀ p, (∀ a ∈ attrib, ∀ uri, Declares a p uri → ns' p = if uri = [] then none else some uri) ∧
    ((¬ ∃ a ∈ attrib, ∃ uri, Declares a p uri) → ns' p = ns p)

/-- the name of an element -/
inductive ElementName (ns : PyStr → Option PyStr) : PyStr → PyStr → Prop
  | plain {l : PyStr} (h : NoColon l) (hn : ns [] = none) : ElementName ns l l
  | default {l uri : PyStr} (h : NoColon l) (hn : ns [] = some uri) : ElementName ns l (py!"{" ++ uri ++ py!"}" ++ l)
  | prefixed {p l uri : PyStr} (hp : NoColon p) (hne : p ≠ []) (h : NoColon l) (hs : LocalStart l) (hn : ns p = some uri) :
      ElementName ns (p ++ py!":" ++ l) (py!"{" ++ uri ++ py!"}" ++ l)

/-- the name of an attribute: the default namespace does not apply -/
inductive AttributeName (ns : PyStr → Option PyStr) : PyStr → PyStr → Prop
  | plain {l : PyStr} (h : NoColon l) : AttributeName ns l l
  | prefixed {p l uri : PyStr} (hp : NoColon p) (hne : p ≠ []) (h : NoColon l) (hs : LocalStart l) (hn : ns p = some uri) :
      AttributeName ns (p ++ py!":" ++ l) (py!"{" ++ uri ++ py!"}" ++ l)

/-- the attributes: declarations are left out -/
inductive AttributeNames (ns : PyStr → Option PyStr) : List (PyStr × PyStr) → List (PyStr × PyStr) → Prop
  | nil : AttributeNames ns [] []
  | declaration {a : PyStr × PyStr} {as bs : List (PyStr × PyStr)} (hd : ∃ p uri, Declares a p uri) (h : AttributeNames ns as bs) :
      AttributeNames ns (a :: as) bs
  | cons {k k' v : PyStr} {as bs : List (PyStr × PyStr)} (hd : ¬ ∃ p uri, Declares (k, v) p uri) (hk : AttributeName ns k k')
      (h : AttributeNames ns as bs) : AttributeNames ns ((k, v) :: as) ((k', v) :: bs)

mutual
/-- the element with expanded names -/
inductive Expanded (validUri : PyStr → Bool) : (PyStr → Option PyStr) → Xml → Xml → Prop
  | mk {ns ns' : PyStr → Option PyStr} {tag tag' : PyStr} {attrib attrib' : List (PyStr × PyStr)} {text : Option PyStr}
      {children children' : List Xml} (hd : ∀ a ∈ attrib, ∀ p uri, Declares a p uri → DeclarationOk validUri p uri)
      (hs : InScope ns attrib ns') (ht : ElementName ns' tag tag') (ha : AttributeNames ns' attrib attrib')
      (hn : (attrib'.map Prod.fst).Nodup) (hc : ExpandedList validUri ns' children children') :
      Expanded validUri ns (.elem tag attrib text children) (.elem tag' attrib' text children')
/-- a list of elements -/
inductive ExpandedList (validUri : PyStr → Bool) : (PyStr → Option PyStr) → List Xml → List Xml → Prop
  | nil {ns : PyStr → Option PyStr} : ExpandedList validUri ns [] []
  | cons {ns : PyStr → Option PyStr} {x y : Xml} {xs ys : List Xml} (h : Expanded validUri ns x y) (hs : ExpandedList validUri ns xs ys) :
      ExpandedList validUri ns (x :: xs) (y :: ys)
end

/-- the namespaces outside of the document: only `xml` -/
def noNamespaces (p : PyStr) : Option PyStr := if p = py!"xml" then some xmlUri else none

mutual
/-- an element without colons in names and without `xmlns`, at any depth -/
inductive NsFree : Xml → Prop
  | mk {tag : PyStr} {attrib : List (PyStr × PyStr)} {text : Option PyStr} {children : List Xml} (ht : NoColon tag)
      (ha : ∀ a ∈ attrib, NoColon a.1 ∧ a.1 ≠ py!"xmlns") (hc : NsFreeList children) : NsFree (.elem tag attrib text children)
/-- a list of such elements -/
inductive NsFreeList : List Xml → Prop
  | nil : NsFreeList []
  | cons {x : Xml} {xs : List Xml} (h : NsFree x) (hs : NsFreeList xs) : NsFreeList (x :: xs)
end

/-- a document whose root element is `y` once all names are expanded -/
def NsDocument (validUri : PyStr → Bool) (s : PyStr) (y : Xml) : Prop := ∃ x, XmlDocument s x ∧ Expanded validUri noNamespaces x y

/-- the elements from `x` down to `e`, both included: each one is a child of the one before -/
inductive Descent : Xml → List Xml → Xml → Prop
  | here {x : Xml} : Descent x [x] x
  | child {x y e : Xml} {es : List Xml} (hc : y ∈ x.children) (h : Descent y es e) : Descent x (x :: es) e

/-- the root element is written with a prefix or declares a default namespace -/
def RootInNamespace (x : Xml) : Prop := ':' ∈ x.tag ∨ ∃ uri, uri ≠ [] ∧ (py!"xmlns", uri) ∈ x.attrib

end Verif
