import Verif.Py.Repr
import Verif.Model.Navigation
/-!
# Model of `str(position)`, the printed form of a location

`attrs.define` generates `__repr__`: name of the class, then `name=repr(value)` for all fields, in the order of their definition; `str` of
an object without `__str__` is its `repr`.
-/

namespace Verif

/-- `repr(AhbLocationLayer(...))`, generated by attrs — /repo/src/maus/navigation.py:139-168 (serves mig_ahb_matching.py:211) -/
def AhbLocationLayer.repr (printable : Char → Bool) (l : AhbLocationLayer) : PyStr :=
  py!"AhbLocationLayer(segment_group_key=" ++ reprOptStr printable l.segmentGroupKey ++ py!", opening_segment_code=" ++
    reprStr printable l.openingSegmentCode ++ py!", opening_qualifier=" ++ reprOptStr printable l.openingQualifier ++ py!")"

/-- `repr` of the list of layers — navigation.py:189 (serves mig_ahb_matching.py:211) -/
def reprLayers (printable : Char → Bool) : List AhbLocationLayer → PyStr
  | [] => py!"[]"
  | l :: ls => py!"[" ++ l.repr printable ++ (ls.flatMap fun x => py!", " ++ x.repr printable) ++ py!"]"

/-- `str(position)`, the `repr` generated by attrs — /repo/src/maus/navigation.py:173-216, 244-249; used in
/repo/src/maus/mig_ahb_matching.py:211 -/
def AhbLocation.str (printable : Char → Bool) (loc : AhbLocation) : PyStr :=
  (if loc.pseudo then py!"_PseudoAhbLocation(layers=" else py!"AhbLocation(layers=") ++ reprLayers printable loc.layers ++
    py!", segment_code=" ++ reprOptStr printable loc.segmentCode ++ py!", data_element_id=" ++
    reprOptStr printable loc.dataElementId ++ py!", qualifier=" ++ reprOptStr printable loc.qualifier ++ py!")"

end Verif
