import Verif.Spec.MigXml
import Verif.Spec.DeepOps
import Verif.Model.Matching
/-!
# Specification: JSON paths that lead to an element of a template
-/

namespace Verif

/-- the name of an element in paths: its own name or, if it has none, that of the nearest element above with a name -/
def NameInPath (above : List Xml) (e : Xml) (n : PyStr) : Prop :=
  ∃ before named after, above ++ [e] = before ++ named :: after ∧ NameOf named n ∧ ∀ x ∈ after, ¬ ∃ m, NameOf x m

/-- `$`, then for each element on the way its name in brackets and quotes and, if it is a class, the index 0 -/
def templatePath (steps : List (PyStr × Xml)) : PyStr :=
  py!"$" ++ steps.flatMap fun s => py!"[\"" ++ s.1 ++ py!"\"]" ++ if s.2.tag = py!"class" then py!"[0]" else []

/-- the JSON path `d` leads to the element at the position `path` of the template; `es` are the elements on the way, the last of
them is the element itself -/
def LeadsTo (root : Xml) (d : PyStr) (path : List Nat) (es : List Xml) : Prop :=
  lineage root path = some es ∧ ∃ names : List PyStr, names.length = es.length ∧
    (∀ (i : Nat) (e : Xml) (n : PyStr), es[i]? = some e → names[i]? = some n → NameInPath (es.take i) e n) ∧
    d = templatePath (names.zip es)

/-- the `ref` of the class for a segment group key: the message itself is the class `UNH` -/
def groupRef : Option PyStr → PyStr
  | some (c :: s) => c :: s
  | _ => py!"UNH"

/-- `loc` is the location of a line of the flat AHB, with or without the qualifier -/
def LocatedAt (sgh : Sgh) (flat : FlatAhb) (line : AhbLine) (loc : AhbLocation) : Prop :=
  ∃ located own, determineLocations sgh flat.lines = .ok located ∧ (line, own) ∈ located ∧
    loc.layers = own.layers ∧ loc.segmentCode = own.segmentCode ∧ loc.dataElementId = own.dataElementId ∧
    (loc.qualifier = own.qualifier ∨ loc.qualifier = none)

/-- the template does not single out an element for the location -/
def NotInTemplate (root : Xml) (loc : AhbLocation) : Prop := ∃ e, getEdifactStack root loc = .error e

/-- the names of a template tell its elements apart: every element has a name, which is neither empty nor contains square brackets,
and elements with the same parent have different names -/
def DistinctNames (root : Xml) : Prop :=
  (∀ path es, lineage root path = some es → ∀ e ∈ es, ∃ n, NameOf e n ∧ n ≠ [] ∧ ∀ c ∈ n, c ≠ '[' ∧ c ≠ ']') ∧
  ∀ (path : List Nat) (i j : Nat) (es fs : List Xml) (a b : Xml) (n : PyStr), lineage root (path ++ [i]) = some (es ++ [a]) →
    lineage root (path ++ [j]) = some (fs ++ [b]) → NameOf a n → NameOf b n → i = j

/-- the names in the template are neither empty nor contain square brackets; there may be elements without a name -/
def PlainNames (root : Xml) : Prop :=
  ∀ path es, lineage root path = some es → ∀ e ∈ es, ∀ n, NameOf e n → n ≠ [] ∧ ∀ c ∈ n, c ≠ '[' ∧ c ≠ ']'

/-- the level of a stack for an element of the template with the name `n`: classes are groupable and have the index 0, fields have no
index -/
def levelFor (n : PyStr) (e : Xml) : EdifactStackLevel :=
  if e.tag = py!"class" then { name := n, isGroupable := true, index := some 0 } else { name := n, isGroupable := false, index := none }

end Verif
