import Verif.Py.Xml
import Verif.Py.Case
import Verif.Py.Regex
import Verif.Model.Navigation
import Verif.Model.Edifact
/-!
# Model of `maus.reader.mig_xml_reader` and `maus.reader.etree_element_helpers`

lxml's XPath engine is modelled for the paths the code builds: `/TAG/tag[@attr='value'][position]/...`. The values are put
into the path without escaping; they are segment group keys, segment codes and data element ids, which the validators of
`AhbLocation` restrict to letters and digits. Names are expanded (`Py/XmlNs.lean`): a name in a namespace is `{uri}local`. An element below
an element in a namespace is found by `element_to_edifact_stack` here, while lxml cannot evaluate a path with an undeclared prefix;
comments and processing instructions are dropped by the reader (`Py/XmlText.lean`).
-/

namespace Verif

/-! ## nested qualifiers -/

/-- `[A-Z\d]` — etree_element_helpers.py:24-31 -/
def isAZDigit (c : Char) : Bool := isAZ c || isDigit c

/-- `(?P<segment_code>[A-Z]+):\d+:(?:\d+|\(\d+,\d+\))\[` — the common beginning of both patterns; etree_element_helpers.py:24-31 -/
def referenceRe : Re :=
  .seq (.grp 1 (.plus (.cls isAZ))) (.seq (.chr ':') (.seq (.plus (.cls isDigit)) (.seq (.chr ':')
    (.seq (.alt (.plus (.cls isDigit)) (.seq (.chr '(') (.seq (.plus (.cls isDigit)) (.seq (.chr ',')
      (.seq (.plus (.cls isDigit)) (.chr ')')))))) (.chr '[')))))

/-- `(?:\w+:)+\w+:?=` — etree_element_helpers.py:24-26 -/
def singlePathRe : Re :=
  .seq (.plus (.seq (.plus (.cls isWord)) (.chr ':'))) (.seq (.plus (.cls isWord)) (.seq (.opt (.chr ':')) (.chr '=')))

/-- `_single_nested_qualifier_pattern` — /repo/src/maus/reader/etree_element_helpers.py:24-26 -/
def singleQualifierRe : Re :=
  .seq .bol (.seq referenceRe (.seq singlePathRe (.seq (.grp 2 (.plus (.cls isAZDigit))) (.seq (.chr ']') .eol))))

/-- `(?:[A-Z]+:)?\d+:\d+=[A-Z\d]+\|?` — etree_element_helpers.py:29-31 -/
def multiItemRe : Re :=
  .seq (.opt (.seq (.plus (.cls isAZ)) (.chr ':'))) (.seq (.plus (.cls isDigit)) (.seq (.chr ':')
    (.seq (.plus (.cls isDigit)) (.seq (.chr '=') (.seq (.plus (.cls isAZDigit)) (.opt (.chr '|')))))))

/-- `_multiple_nestes_qualifiers_pattern` — etree_element_helpers.py:29-31 -/
def multiQualifierRe : Re :=
  .seq referenceRe (.seq (.grp 2 (.plus multiItemRe)) (.seq (.chr ']') .eol))

/-- `expression.split("=")[1]` — etree_element_helpers.py:49 -/
def afterEquals (expression : PyStr) : PyRes PyStr :=
  match splitChar '=' expression with
  | _ :: q :: _ => .ok q
  | _ => .error .indexError

/-- `get_nested_qualifiers` for the value of the attribute — etree_element_helpers.py:34-50 -/
def qualifiersOfBody (body : PyStr) : PyRes (Option (List PyStr)) :=
  match singleQualifierRe.pyMatch body with
  | some m => .ok (some [(Re.group m 2).getD []])
  | none => match multiQualifierRe.pyMatch body with
    | some m => do
      let qs ← (splitChar '|' ((Re.group m 2).getD [])).mapM afterEquals
      pure (some qs)
    | none => .ok none

/-- `get_nested_qualifiers` — etree_element_helpers.py:34-50 -/
def getNestedQualifiers (attribKey : PyStr) (e : Xml) : PyRes (Option (List PyStr)) :=
  match dictGet attribKey e.attrib with
  | none => .ok none
  | some body => qualifiersOfBody body

/-- `get_segment_group_key_or_none` — etree_element_helpers.py:13-20 -/
def getSegmentGroupKeyOrNone (e : Xml) : Option PyStr :=
  match dictGet py!"ref" e.attrib with
  | some r => if py!"SG".isPrefixOf r then some r else none
  | none => none

/-- `get_ahb_name_or_none` — etree_element_helpers.py:53-59 -/
def getAhbNameOrNone (e : Xml) : Option PyStr := dictGet py!"ahbName" e.attrib

/-! ## XPath -/

/-- an element of a document: the positions of its ancestors and itself among their siblings, and the element (serves mig_xml_reader.py:147-163) -/
structure XNode where
  path : List Nat
  elem : Xml

/-- a step `tag[@attr='value'][position]` (serves mig_xml_reader.py:147-163) -/
structure XStep where
  tag : PyStr
  attr : PyStr
  value : PyStr
  position : Option Nat := none

/-- the child elements of a node (serves mig_xml_reader.py:147-163) -/
def XNode.children (n : XNode) : List XNode := n.elem.children.mapIdx fun i c => { path := n.path ++ [i], elem := c }

/-- `tag[@attr='value']` (serves mig_xml_reader.py:147-163) -/
def XStep.matches (s : XStep) (n : XNode) : Bool :=
  decide (n.elem.tag = s.tag) && decide (dictGet s.attr n.elem.attrib = some s.value)

/-- the nodes a step selects below a node; a position counts the matches below this node, starting with 1 (serves mig_xml_reader.py:147-163) -/
def XStep.eval (s : XStep) (n : XNode) : List XNode :=
  let found := n.children.filter s.matches
  match s.position with
  | none => found
  | some k => (found.drop (k - 1)).take 1

/-- `root.xpath("/ROOT/step/step...")`, the result is in document order (serves mig_xml_reader.py:107, 150, 162, 177) -/
def xpath (root : Xml) (steps : List XStep) : List XNode :=
  steps.foldl (fun nodes s => nodes.flatMap s.eval) [{ path := [], elem := root }]

/-! ## the lookup -/

/-- `class[@ref='...']` (serves mig_xml_reader.py:149, 161) -/
def classStep (ref : PyStr) (position : Option Nat := none) : XStep :=
  { tag := py!"class", attr := py!"ref", value := ref, position := position }

/-- `layer.segment_group_key or 'UNH'` (serves mig_xml_reader.py:149) -/
def layerRef (layer : AhbLocationLayer) : PyStr :=
  match layer.segmentGroupKey with
  | none => py!"UNH"
  | some k => if k.isEmpty then py!"UNH" else k

/-- `qualifier in set(get_nested_qualifiers(key, candidate) or [])` (serves mig_xml_reader.py:132, 168) -/
def hasQualifier (attribKey : PyStr) (qualifier : Option PyStr) (n : XNode) : PyRes Bool := do
  let qs ← getNestedQualifiers attribKey n.elem
  pure (match qualifier with
    | none => false
    | some q => decide (q ∈ qs.getD []))

/-- the loop of `_get_candidate_index_from_key`: `possible_results` — mig_xml_reader.py:126-133 -/
def possibleResults (qualifier : Option PyStr) : Nat → List XNode → PyRes (List Nat)
  | _, [] => .ok []
  | i, c :: cs => do
    let b ← hasQualifier py!"key" qualifier c
    let rest ← possibleResults qualifier (i + 1) cs
    pure (if b then i :: rest else rest)

/-- `_get_candidate_index_from_key` — mig_xml_reader.py:126-137 -/
def candidateIndexFromKey (layer : AhbLocationLayer) (candidates : List XNode) : PyRes Nat := do
  let possible ← possibleResults layer.openingQualifier 0 candidates
  match possible with
  | [] => .error .valueError
  | i :: _ => .ok i

/-- the loop over the layers with `final_query_path` and `candidates` — mig_xml_reader.py:148-158 -/
def layerLoop (root : Xml) : List XStep → List XNode → List AhbLocationLayer → PyRes (List XStep × List XNode)
  | final, candidates, [] => .ok (final, candidates)
  | final, _, layer :: layers => do
    let query := final ++ [classStep (layerRef layer)]
    let candidates := xpath root query
    if candidates.length = 0 then .error .valueError
    else if candidates.length > 1 then do
      let i ← candidateIndexFromKey layer candidates
      layerLoop root (final ++ [classStep (layerRef layer) (some (i + 1))]) (candidates.drop i |>.take 1) layers
    else layerLoop root query candidates layers

/-- the loop over the segment candidates: the first one with the opening qualifier — mig_xml_reader.py:163-171 -/
def firstWithKey (qualifier : Option PyStr) : Nat → List XNode → PyRes (Option Nat)
  | _, [] => .ok none
  | i, c :: cs => do
    let b ← hasQualifier py!"key" qualifier c
    if b then pure (some i) else firstWithKey qualifier (i + 1) cs

/-- the class of the segment, if there is one — mig_xml_reader.py:159-173. `layer` is the last layer; `ahb_location.layers`
is never empty (`AhbLocation.new`), so neither `layer` nor `candidates` is unbound. -/
def migSegmentStep (root : Xml) (segmentCode : Option PyStr) (layer : Option AhbLocationLayer) (final : List XStep)
    (candidates : List XNode) : PyRes (List XStep × List XNode) :=
  match segmentCode with
  | none => .ok (final, candidates)
  | some code =>
    if code = py!"UNH" then .ok (final, candidates)
    else
      let query := final ++ [classStep code]
      let found := xpath root query
      if found.length > 1 then
        match layer with
        | none => .error .unboundLocalError
        | some layer => do
          let i ← firstWithKey layer.openingQualifier 0 found
          match i with
          | none => pure (final, candidates)
          | some i => pure (final ++ [classStep code (some (i + 1))], found)
      else if found.length = 1 then .ok (query, candidates)
      else .ok (final, candidates)

/-- `one(n for n, c in enumerate(candidates) if ...)` once the first index is known: a second one is an error
— mig_xml_reader.py:183-190 -/
def noFurther (qualifier : Option PyStr) (i : Nat) : List XNode → PyRes Nat
  | [] => .ok i
  | c :: cs => do
    let b ← hasQualifier py!"ref" qualifier c
    if b then .error .valueError else noFurther qualifier i cs

/-- `one(n for n, c in enumerate(candidates) if qualifier in ...)` — mig_xml_reader.py:183-190 -/
def oneWithRef (qualifier : Option PyStr) : Nat → List XNode → PyRes Nat
  | _, [] => .error .valueError
  | i, c :: cs => do
    let b ← hasQualifier py!"ref" qualifier c
    if b then noFurther qualifier i cs else oneWithRef qualifier (i + 1) cs

/-- the field of the data element — mig_xml_reader.py:174-196 -/
def fieldStep (root : Xml) (dataElementId qualifier : Option PyStr) (final : List XStep) (candidates : List XNode) :
    PyRes (List XNode) :=
  match dataElementId with
  | none => .ok candidates
  | some d =>
    let candidates := xpath root (final ++ [{ tag := py!"field", attr := py!"meta.id", value := d }])
    if candidates.length = 0 then .error .valueError
    else if candidates.length > 1 then
      match qualifier with
      | some q => do
        let i ← oneWithRef (some q) 0 candidates
        pure (candidates.drop i |>.take 1)
      | none => .error .valueError
    else .ok candidates

/-- `one(candidates)` (serves mig_xml_reader.py:183-190, 197) -/
def pyOne {α : Type} (l : List α) : PyRes α :=
  match l with
  | [x] => .ok x
  | _ => .error .valueError

/-- `MigXmlReader.get_element` — mig_xml_reader.py:141-197. The path starts with the tag of the root; if the root is in a namespace,
it is `{uri}name`, which is no valid XPath expression: `lxml.etree.XPathEvalError`. -/
def getElement (root : Xml) (location : AhbLocation) : PyRes XNode := do
  match location.layers with
  | [] => .error .unboundLocalError
  | _ :: _ =>
    if '{' ∈ root.tag then .error .other else
    let (final, candidates) ← layerLoop root [classStep py!"/"] [] location.layers
    let (final, candidates) ← migSegmentStep root location.segmentCode location.layers.getLast? final candidates
    let candidates ← fieldStep root location.dataElementId location.qualifier final candidates
    pyOne candidates

/-! ## stacks -/

/-- the attributes that may name a level — mig_xml_reader.py:111-116 -/
def nameKeys (isGroupable : Bool) : List PyStr :=
  if isGroupable then [py!"migName", py!"ahbName", py!"name"] else [py!"ahbName", py!"name", py!"migName"]

/-- the loop over the leafs; `name` is `level_name`, which keeps its value if the element has no name
— mig_xml_reader.py:102-124. `getpath` numbers the elements on the way to an element; evaluating its prefixes gives these
elements, which are addressed by their position here. -/
def stackLoop (name : Option PyStr) (e : Xml) : List Nat → PyRes (List EdifactStackLevel)
  | [] => .ok []
  | i :: path =>
    match e.children[i]? with
    | none => .error .indexError
    | some leaf => do
      let groupable := decide (leaf.tag = py!"class")
      let name := match (nameKeys groupable).findSome? fun key => dictGet key leaf.attrib with
        | some n => some n
        | none => name
      match name with
      | none => .error .unboundLocalError
      | some n =>
        let rest ← stackLoop name leaf path
        pure ({ name := n, isGroupable := groupable } :: rest)

/-- `MigXmlReader.element_to_edifact_stack` for the element at the given position (in the original or in the sanitised tree,
which have the same structure) — mig_xml_reader.py:93-124 -/
def elementToEdifactStack (root : Xml) (path : List Nat) : PyRes EdifactStack := do
  let levels ← stackLoop none root path
  pure { levels := levels }

/-- `MigXmlReader.get_edifact_stack` — mig_xml_reader.py:199-204 -/
def getEdifactStack (root : Xml) (location : AhbLocation) : PyRes EdifactStack := do
  let element ← getElement root location
  elementToEdifactStack root element.path

/-! ## names -/

/-- `make_name_comparable` — mig_ahb_name_helpers.py:18-28 -/
def makeNameComparable (s : PyStr) : PyStr :=
  replaceChar '\n' [] (replaceChar '-' [] (replaceChar ' ' [] (replaceChar 'ß' py!"ss" (lower s))))

/-- `make_name_comparable` of an `Optional[str]` — mig_ahb_name_helpers.py:18-28 -/
def makeNameComparable? : Option PyStr → Option PyStr
  | none => none
  | some s => some (makeNameComparable s)

/-- `are_similar_names` — mig_ahb_name_helpers.py:31-42 -/
def areSimilarNames (x y : Option PyStr) : Bool :=
  if (truthy x && !truthy y) || (truthy y && !truthy x) then false
  else if !truthy x && !truthy y then true
  else decide (makeNameComparable? x = makeNameComparable? y)

mutual
/-- `make_tree_names_comparable` — mig_ahb_name_helpers.py:45-52 (assigning to an existing key keeps its position) -/
def makeTreeNamesComparable : Xml → Xml
  | .elem tag attrib text children =>
    .elem tag (attrib.map fun p =>
      if p.1 = py!"name" ∨ p.1 = py!"ahbName" then (p.1, makeNameComparable p.2) else p) text
      (makeTreesNamesComparable children)
/-- the same for all children (serves mig_xml_reader.py:70) -/
def makeTreesNamesComparable : List Xml → List Xml
  | [] => []
  | x :: xs => makeTreeNamesComparable x :: makeTreesNamesComparable xs
end

end Verif
