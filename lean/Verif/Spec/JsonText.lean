import Verif.Py.JsonText
/-!
# Specification vocabulary for JSON texts
-/

namespace Verif

mutual
/-- a value that is written: the keys of every dictionary are distinct, as in every Python dictionary, and there is no float -/
def Json.IsPython : Json → Prop
  | .arr l => Json.IsPythonItems l
  | .obj d => (d.map Prod.fst).Nodup ∧ Json.IsPythonMembers d
  | .float _ => False
  | _ => True
/-- the same for the items of a list -/
def Json.IsPythonItems : List Json → Prop
  | [] => True
  | j :: l => j.IsPython ∧ Json.IsPythonItems l
/-- the same for the values of a dictionary -/
def Json.IsPythonMembers : List (PyStr × Json) → Prop
  | [] => True
  | (_, v) :: d => v.IsPython ∧ Json.IsPythonMembers d
end

mutual
/-- Python's `==` on the values: the order of the members of a dictionary does not matter -/
inductive Json.Same : Json → Json → Prop
  | null : Same .null .null
  | bool (b : Bool) : Same (.bool b) (.bool b)
  | num (i : Int) : Same (.num i) (.num i)
  | float (f : PyFloat) : Same (.float f) (.float f)
  | str (s : PyStr) : Same (.str s) (.str s)
  | arr {l l' : List Json} : SameItems l l' → Same (.arr l) (.arr l')
  | obj {d d' e : List (PyStr × Json)} : SameMembers d e → e.Perm d' → Same (.obj d) (.obj d')
/-- the items one by one -/
inductive Json.SameItems : List Json → List Json → Prop
  | nil : SameItems [] []
  | cons {j j' : Json} {l l' : List Json} : Json.Same j j' → SameItems l l' → SameItems (j :: l) (j' :: l')
/-- the members one by one -/
inductive Json.SameMembers : List (PyStr × Json) → List (PyStr × Json) → Prop
  | nil : SameMembers [] []
  | cons {k : PyStr} {v v' : Json} {d d' : List (PyStr × Json)} :
      Json.Same v v' → SameMembers d d' → SameMembers ((k, v) :: d) ((k, v') :: d')
end

end Verif
