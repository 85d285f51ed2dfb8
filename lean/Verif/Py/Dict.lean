import Verif.Py.Base
/-!
# Python dictionaries as insertion ordered association lists
-/

namespace Verif

/-- `d[k] = v`: an existing key keeps its position, a new key goes to the end -/
def dictSet {κ α : Type} [DecidableEq κ] (k : κ) (v : α) : List (κ × α) → List (κ × α)
  | [] => [(k, v)]
  | (k', v') :: d => if k' = k then (k', v) :: d else (k', v') :: dictSet k v d

/-- `d.get(k)` -/
def dictGet {κ α : Type} [DecidableEq κ] (k : κ) : List (κ × α) → Option α
  | [] => none
  | (k', v) :: d => if k' = k then some v else dictGet k d

/-- `d1.update(d2)` / a dict comprehension over the pairs `d2` -/
def dictUpdate {κ α : Type} [DecidableEq κ] (d : List (κ × α)) (ps : List (κ × α)) : List (κ × α) :=
  ps.foldl (fun d p => dictSet p.1 p.2 d) d

end Verif
