import Verif.Model.Session
/-!
# Specification: what is shared by the objects that are made from one CSV reader (C120)
-/

namespace Verif

/-- the state can be reached from a new reader -/
def Session.Reachable (s : Session) : Prop := ∃ (r : CsvReader) (ops : List SessionOp), s = (Session.ofReader r).run ops

/-- the `d`-th deep AHB and the `i`-th flat AHB have the same `AhbMetaInformation` object -/
def Session.Converted (s : Session) (d i : Nat) : Prop :=
  ∃ m refs groups, s.flats[i]? = some (m, refs) ∧ s.deeps[d]? = some (m, groups)

/-- an assignment to an attribute of a line -/
def SessionOp.AssignsLine : SessionOp → Prop
  | .editFlat _ (.assign _ _) => True
  | _ => False

/-- a change of the list of lines of the `i`-th flat AHB: assigned, changed in place or sorted -/
def SessionOp.ChangesList (i : Nat) : SessionOp → Prop
  | .editFlat k (.setLines _) | .editFlat k (.mutate _) | .editFlat k .sort => k = i
  | _ => False

/-- a step that may write into the meta information of the `i`-th flat AHB: an assignment through this flat AHB or through a deep AHB that
was converted from it, or a conversion -/
def SessionOp.WritesMeta (s : Session) (i : Nat) : SessionOp → Prop
  | .assignFlatMeta k _ | .toDeep k _ _ _ => k = i
  | .assignDeepMeta d _ => s.Converted d i
  | _ => False

/-- a change of the groups of the `d`-th deep AHB -/
def SessionOp.ChangesDeep (d : Nat) : SessionOp → Prop
  | .editDeep k _ => k = d
  | _ => False

end Verif
