import Verif.Py.Regex
/-!
# Model of `AhbLine` (`maus.models.anwendungshandbuch`) and of the shared string validator (`maus.models`)
-/

namespace Verif

/-- `_check_that_string_is_not_whitespace_or_empty` — /repo/src/maus/models/__init__.py:8-15.
`True` iff the check passes; the failing branches both raise `ValueError`. `None` fails (`not value`). -/
def isNotBlank : Option PyStr → Bool
  | none => false
  | some s => !s.isEmpty && decide ((strip s).length ≠ 0)

/-- `AhbLine` — /repo/src/maus/models/anwendungshandbuch.py:31-102.
The GUID is represented by its 128 bit value; `index` is an `int`. -/
structure AhbLine where
  guid : Option Nat := none
  segmentGroupKey : Option PyStr := none
  segmentCode : Option PyStr := none
  dataElement : Option PyStr := none
  segmentId : Option PyStr := none
  valuePoolEntry : Option PyStr := none
  name : Option PyStr := none
  ahbExpression : Option PyStr := none
  conditions : Option PyStr := none
  sectionName : Option PyStr := none
  index : Option Int := none
  deriving DecidableEq

namespace AhbLine

/-- the validators of the constructor `AhbLine(...)` that are not reflected by the field types:
`ahb_expression` is `None` or not blank (anwendungshandbuch.py:77-83), `index` is `None` or `>= 0` (line 99),
a `UUID` has 128 bits -/
def valid (l : AhbLine) : Bool :=
  (l.ahbExpression.isNone || isNotBlank l.ahbExpression) && (match l.index with
    | none => true
    | some i => decide (0 ≤ i)) && (match l.guid with
    | none => true
    | some g => decide (g < 2 ^ 128))

/-- constructing an `AhbLine`; a failing validator raises `ValueError` (serves anwendungshandbuch.py:31-134) -/
def new (l : AhbLine) : PyRes AhbLine := if l.valid then .ok l else .error .valueError

/-- one disjunct of `holds_any_information`: `x is not None and len(x.strip()) > 0` — anwendungshandbuch.py:112 -/
def holdsField : Option PyStr → Bool
  | none => false
  | some s => decide ((strip s).length > 0)

/-- `AhbLine.holds_any_information` — anwendungshandbuch.py:104-118 -/
def holdsAnyInformation (l : AhbLine) : Bool :=
  holdsField l.segmentGroupKey || holdsField l.segmentCode || holdsField l.dataElement
    || holdsField l.valuePoolEntry || holdsField l.name || holdsField l.ahbExpression

/-- formatting of an `Optional[str]` in an f-string (serves anwendungshandbuch.py:120-134) -/
def fmtOpt : Option PyStr → PyStr
  | none => py!"None"
  | some s => s

/-- `AhbLine.get_discriminator` — anwendungshandbuch.py:120-134 -/
def getDiscriminator (l : AhbLine) (includeName : Bool) : PyStr :=
  let result : PyStr := if truthy l.segmentGroupKey then fmtOpt l.segmentGroupKey ++ py!"->" else []
  let result := result ++ (fmtOpt l.segmentCode ++ py!"->" ++ fmtOpt l.dataElement)
  if truthy l.name && includeName then result ++ (py!" (" ++ fmtOpt l.name ++ py!")") else result

end AhbLine
end Verif
