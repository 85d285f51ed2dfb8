import Verif.Py.Dict
/-!
# XML trees and xmltodict 0.13

An element tree as the code sees it. The text layer (entities, CDATA sections, comments, processing instructions) is in
`Py/XmlText.lean`: the text of an element is all character data in it, which is what xmltodict puts together.
-/

namespace Verif

/-- an element with the attributes as they are written in the serialised document, the text (character data) of the element,
and the children -/
inductive Xml where
  | elem (tag : PyStr) (attrib : List (PyStr × PyStr)) (text : Option PyStr) (children : List Xml)

namespace Xml
/-- `element.tag` -/
def tag : Xml → PyStr
  | elem t _ _ _ => t
/-- `element.attrib` -/
def attrib : Xml → List (PyStr × PyStr)
  | elem _ a _ _ => a
/-- `element.text` -/
def text : Xml → Option PyStr
  | elem _ _ t _ => t
/-- `list(element)` -/
def children : Xml → List Xml
  | elem _ _ _ c => c
end Xml

/-- the values in the dictionary returned by `xmltodict.parse` -/
inductive XVal where
  | none
  | str (s : PyStr)
  | dict (d : List (PyStr × XVal))
  | list (l : List XVal)

/-- xmltodict's `push_data`: a second value for the same key turns the entry into a list -/
def pushData (item : Option (List (PyStr × XVal))) (key : PyStr) (data : XVal) : List (PyStr × XVal) :=
  let d := item.getD []
  match dictGet key d with
  | Option.none => dictSet key data d
  | some (.list l) => dictSet key (.list (l ++ [data])) d
  | some v => dictSet key (.list [v, data]) d

/-- character data with `strip_whitespace=True`: `data.strip() or None` -/
def xmlData (text : Option PyStr) : Option PyStr :=
  text.bind fun s => if strip s = [] then Option.none else some (strip s)

/-- the entries for the attributes (prefix `@`); `None` if there are none -/
def attrItem (attrib : List (PyStr × PyStr)) : Option (List (PyStr × XVal)) :=
  if attrib.isEmpty then Option.none else some (attrib.map fun p => ('@' :: p.1, .str p.2))

/-- xmltodict's `endElement`: the value of an element from its attribute and child entries and its character data -/
def elementValue (item : Option (List (PyStr × XVal))) (data : Option PyStr) : XVal :=
  match item with
  | Option.none => match data with
    | Option.none => .none
    | some s => .str s
  | some d => match data with
    | Option.none => .dict d
    | some s => .dict (pushData (some d) py!"#text" (.str s))

mutual
/-- the value of an element in the dictionary returned by `xmltodict.parse` -/
def Xml.toValue : Xml → XVal
  | .elem _ attrib text children => elementValue (Xml.pushChildren (attrItem attrib) children) (xmlData text)
/-- the entries of the children, one after the other -/
def Xml.pushChildren (item : Option (List (PyStr × XVal))) : List Xml → Option (List (PyStr × XVal))
  | [] => item
  | .elem tag attrib text children :: l =>
    Xml.pushChildren (some (pushData item tag (Xml.toValue (.elem tag attrib text children)))) l
end

/-- `xmltodict.parse(etree.tostring(element))` -/
def xmlParse (x : Xml) : List (PyStr × XVal) := [(x.tag, x.toValue)]

/-- `value[key]` with a string key -/
def XVal.subscript (v : XVal) (key : PyStr) : PyRes XVal :=
  match v with
  | .dict d => match dictGet key d with
    | some x => .ok x
    | Option.none => .error .keyError
  | _ => .error .typeError

/-- may lxml store this character as text? (otherwise a `ValueError` is raised) -/
def isXmlChar (c : Char) : Bool :=
  let n := c.toNat
  n == 9 || n == 10 || n == 13 || (32 ≤ n && n != 0xFFFE && n != 0xFFFF)

end Verif
