import Verif.Py.Case
import Verif.Py.Regex
/-!
# Model of `maus.division_helper` and `maus.edifact`
-/

namespace Verif

/-! ## divisions -/

/-- `Division` — /repo/src/maus/division_helper.py:9-15 -/
inductive Division where
  | electricity
  | gas
  deriving DecidableEq, Repr

mutual
/-- `is_gas_name(field_name, _is_recursive)`, `none` is Python's `None` — division_helper.py:31-39 -/
def isGasName (fieldName : PyStr) (isRecursive : Bool) : Option Bool :=
  if contains py!"gas" (lower fieldName) then some true
  else if _h : isRecursive = false then
    if isElectricityName fieldName true = some true then some false else none
  else none
termination_by if isRecursive then 0 else 1
decreasing_by simp [_h]
/-- `is_electricity_name(field_name, _is_recursive)` — division_helper.py:42-50 -/
def isElectricityName (fieldName : PyStr) (isRecursive : Bool) : Option Bool :=
  if contains py!"strom" (lower fieldName) then some true
  else if _h : isRecursive = false then
    if isGasName fieldName true = some true then some false else none
  else none
termination_by if isRecursive then 0 else 1
decreasing_by simp [_h]
end

/-- `get_division(field_name)` — division_helper.py:18-28 -/
def getDivision (fieldName : Option PyStr) : Option Division :=
  match fieldName with
  | none => none
  | some s =>
    if s.isEmpty then none
    else if isGasName s false = some true then some .gas
    else if isElectricityName s false = some true then some .electricity
    else none

/-! ## EDIFACT metadata -/

/-- `is_edifact_boilerplate(segment_code)` — /repo/src/maus/edifact.py:15-21 -/
def isEdifactBoilerplate (segmentCode : Option PyStr) : Bool :=
  match segmentCode with
  | none => true
  | some s => if s.isEmpty then true else decide (strip s = py!"UNT" ∨ strip s = py!"UNZ")

/-- `[1-9]` — edifact.py:11 -/
def is19 (c : Char) : Bool := 49 ≤ c.toNat && c.toNat ≤ 57

/-- `_PRUEFI_REGEX = r"^[1-9]\d{4}$"` — edifact.py:11 -/
def pruefidentifikatorRe : Re := .seq .bol (.seq (.cls is19) (.seq (.rep 4 (.cls isDigit)) .eol))

/-- an argument of a constructor, whose class is checked by `attrs.validators.instance_of`: an instance of the class or
another object, of which only the result of comparing it (`==`) with instances of the class matters (serves edifact.py:43-66) -/
inductive Arg (α : Type) where
  | inst (a : α)
  | other (eqTo : α → Bool)

/-- `arg == a` (serves edifact.py:25-33) -/
def Arg.eqVal {α : Type} [DecidableEq α] : Arg α → α → Bool
  | .inst b, a => decide (b = a)
  | .other f, a => f a

/-- `EdiMetaData` — edifact.py:36-66; `F`: `EdifactFormat`, `V`: `EdifactFormatVersion` of the package efoli -/
structure EdiMetaData (F V : Type) where
  pruefidentifikator : PyStr
  edifactFormat : F
  edifactFormatVersion : V
  deriving DecidableEq

/-- `attrs.validators.instance_of` (serves edifact.py:43-66) -/
def instanceOf {α : Type} : Arg α → PyRes α
  | .inst a => .ok a
  | .other _ => .error .typeError

/-- `_check_that_pruefi_and_format_are_consistent` — edifact.py:25-33; `lookup` is efoli's
`get_format_of_pruefidentifikator`, which may raise -/
def checkPruefiAndFormat {F : Type} [DecidableEq F] (lookup : Arg PyStr → PyRes F) (format : Arg F) (value : PyStr) : PyRes Unit := do
  let expected ← lookup (.inst value)
  if format.eqVal expected then pure () else .error .valueError

/-- the `__init__` of `EdiMetaData` generated by attrs: the fields are set in the order of their definition (`none` is
a missing keyword argument, then the default of `edifact_format` is computed), then the validators run in the same order
— edifact.py:43-66 -/
def mkEdiMetaData {F V : Type} [DecidableEq F] (lookup : Arg PyStr → PyRes F) (pruefi : Arg PyStr) (format : Option (Arg F))
    (version : Arg V) : PyRes (EdiMetaData F V) := do
  let fmt : Arg F ← match format with
    | some f => pure f
    | none => (lookup pruefi).map .inst
  let p ← instanceOf pruefi
  if (pruefidentifikatorRe.fullMatch p).isSome then pure () else .error .valueError
  checkPruefiAndFormat lookup fmt p
  let f ← instanceOf fmt
  let v ← instanceOf version
  pure { pruefidentifikator := p, edifactFormat := f, edifactFormatVersion := v }

end Verif
