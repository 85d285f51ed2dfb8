import Verif.Py.Xml
/-!
# XML namespaces as lxml resolves them

`lxml.etree` gives an element or attribute in a namespace the name `{uri}local`. Namespace errors (undeclared prefixes, names that are
no qualified names, declarations that are not allowed) make lxml refuse a document. Whether a URI is acceptable is a parameter
(`validUri`; libxml2 asks for a URI reference of RFC 3986). Not modelled: lxml also refuses colons in the names of processing
instructions. xmltodict (expat) does not resolve namespaces.
-/

namespace Verif

/-- the namespace of the prefix `xml` -/
def xmlUri : PyStr := py!"http://www.w3.org/XML/1998/namespace"
/-- the namespace of the prefix `xmlns` -/
def xmlnsUri : PyStr := py!"http://www.w3.org/2000/xmlns/"

/-- a qualified name: prefix (`[]` if there is none) and local name -/
def splitQName (name : PyStr) : Option (PyStr × PyStr) :=
  match splitChar ':' name with
  | [l] => some ([], l)
  | [p, c :: l] => if p = [] ∨ c ∈ py!"0123456789-." then none else some (p, c :: l)
  | _ => none

/-- the prefix and the URI if the attribute is a namespace declaration -/
def nsDecl (a : PyStr × PyStr) : Option (PyStr × PyStr) :=
  if a.1 = py!"xmlns" then some ([], a.2)
  else match splitQName a.1 with
    | some (p, l) => if p = py!"xmlns" then some (l, a.2) else none
    | none => none

/-- whether a declaration is allowed -/
def nsDeclOk (validUri : PyStr → Bool) (d : PyStr × PyStr) : Bool :=
  if d.1 = py!"xml" then decide (d.2 = xmlUri)
  else if d.1 = py!"xmlns" then false
  else if d.2 = [] then decide (d.1 = [])
  else d.2 ≠ xmlUri && d.2 ≠ xmlnsUri && validUri d.2

/-- `{uri}local` -/
def clark (uri local_ : PyStr) : PyStr := '{' :: uri ++ '}' :: local_

/-- the name of an element or attribute; the default namespace is for elements only -/
def expandName (scope : List (PyStr × PyStr)) (isElement : Bool) (name : PyStr) : Option PyStr :=
  match splitQName name with
  | none => none
  | some (p, l) =>
    if p = [] then
      match (if isElement then dictGet [] scope else none) with
      | none => some l
      | some uri => if uri = [] then some l else some (clark uri l)
    else if p = py!"xml" then some (clark xmlUri l)
    else (dictGet p scope).map fun uri => clark uri l

/-- the attributes that are no declarations, with their names expanded -/
def expandAttribs (scope : List (PyStr × PyStr)) : List (PyStr × PyStr) → Option (List (PyStr × PyStr))
  | [] => some []
  | a :: as =>
    match nsDecl a with
    | some _ => expandAttribs scope as
    | none =>
      match expandName scope false a.1, expandAttribs scope as with
      | some k, some rest => some ((k, a.2) :: rest)
      | _, _ => none

mutual
/-- the element with all names expanded; `none` if there is a namespace error -/
def resolveNs (validUri : PyStr → Bool) (scope : List (PyStr × PyStr)) : Xml → Option Xml
  | .elem tag attrib text children =>
    let decls := attrib.filterMap nsDecl
    if decls.all (nsDeclOk validUri) then
      match expandName (decls ++ scope) true tag, expandAttribs (decls ++ scope) attrib,
          resolveNss validUri (decls ++ scope) children with
      | some tag', some attrib', some children' =>
        if (attrib'.map Prod.fst).Nodup then some (.elem tag' attrib' text children') else none
      | _, _, _ => none
    else none
/-- all elements of a list -/
def resolveNss (validUri : PyStr → Bool) (scope : List (PyStr × PyStr)) : List Xml → Option (List Xml)
  | [] => some []
  | x :: xs =>
    match resolveNs validUri scope x, resolveNss validUri scope xs with
    | some y, some ys => some (y :: ys)
    | _, _ => none
end

end Verif
