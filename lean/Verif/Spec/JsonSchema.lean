import Verif.Py.Json
/-!
# JSON Schema, draft 7

The keywords that occur in the published schema: `$ref` (which makes all other keywords be ignored), `type`, `enum`, `properties`,
`additionalProperties` (a boolean), `required`, `items` (one schema for all items). `title` and `$schema` are annotations.
-/

namespace Verif

/-- a `float` without fraction; draft 7 counts it as an integer -/
def PyFloat.isWhole : PyFloat → Bool
  | finite _ m e => m % 2 ^ (-e).toNat = 0
  | _ => false

/-- does the value have this type? -/
def Json.hasType : Json → PyStr → Bool
  | .null, t => t = py!"null"
  | .bool _, t => t = py!"boolean"
  | .num _, t => t = py!"integer" ∨ t = py!"number"
  | .float f, t => t = py!"number" ∨ (t = py!"integer" ∧ f.isWhole)
  | .str _, t => t = py!"string"
  | .arr _, t => t = py!"array"
  | .obj _, t => t = py!"object"

/-- `type`: a name or a list of names -/
def typeHolds (keyword : Option Json) (x : Json) : Bool :=
  match keyword with
  | none => true
  | some (.str t) => x.hasType t
  | some (.arr ts) => ts.any fun t => match t with
    | .str t => x.hasType t
    | _ => false
  | some _ => false

/-- `enum` with strings -/
def enumHolds (keyword : Option Json) (x : Json) : Bool :=
  match keyword with
  | none => true
  | some (.arr vs) => vs.any fun v => match v, x with
    | .str a, .str b => a = b
    | _, _ => false
  | some _ => false

/-- `required` -/
def requiredHolds (keyword : Option Json) (d : List (PyStr × Json)) : Bool :=
  match keyword with
  | none => true
  | some (.arr ks) => ks.all fun k => match k with
    | .str k => (dictGet k d).isSome
    | _ => false
  | some _ => false

/-- the dictionary under a keyword -/
def keywordDict : Option Json → List (PyStr × Json)
  | some (.obj d) => d
  | _ => []

/-- the schema that `$ref` refers to: `#/definitions/...` -/
def refTarget (root : Json) (ref : PyStr) : Option Json :=
  match root with
  | .obj r => if py!"#/definitions/".isPrefixOf ref then dictGet (ref.drop 14) (keywordDict (dictGet py!"definitions" r)) else none
  | _ => none

/-- does the value conform to the schema? `n` bounds the number of nested schemas that are visited. -/
def conformsWithin (root : Json) : Nat → Json → Json → Bool
  | 0, _, _ => false
  | n + 1, .obj s, x =>
    match dictGet py!"$ref" s with
    | some (.str r) => match refTarget root r with
      | some t => conformsWithin root n t x
      | none => false
    | _ =>
      typeHolds (dictGet py!"type" s) x && enumHolds (dictGet py!"enum" s) x &&
      match x with
      | .obj d =>
        requiredHolds (dictGet py!"required" s) d &&
        d.all fun p => match dictGet p.1 (keywordDict (dictGet py!"properties" s)) with
          | some t => conformsWithin root n t p.2
          | none => match dictGet py!"additionalProperties" s with
            | some (.bool false) => false
            | _ => true
      | .arr l => match dictGet py!"items" s with
        | some t => l.all fun y => conformsWithin root n t y
        | none => true
      | _ => true
  | _ + 1, .bool b, _ => b
  | _ + 1, _, _ => false

/-- the value conforms to the schema -/
def Conforms (root schema x : Json) : Prop := ∃ n, conformsWithin root n schema x = true

/-- the value conforms to one of the definitions -/
def ConformsTo (root : Json) (definition : PyStr) (x : Json) : Prop :=
  ∃ schema, refTarget root (py!"#/definitions/" ++ definition) = some schema ∧ Conforms root schema x

end Verif
