import Verif.Py.Dict
import Verif.Py.Int
import Verif.Py.Float
/-!
# JSON-like values and the field semantics of marshmallow 3.22

A dumped object is a dictionary of strings, integers, booleans, `None`, lists and dictionaries; a document that is loaded may contain
floats, too. The text layer (`json.dumps`
and `json.loads`) is in `Py/JsonText.lean`.
-/

namespace Verif

/-- the values a schema dumps to and loads from; a dictionary is an association list with distinct keys -/
inductive Json where
  | null
  | bool (b : Bool)
  | num (i : Int)
  | float (f : PyFloat)
  | str (s : PyStr)
  | arr (l : List Json)
  | obj (d : List (PyStr × Json))

/-- the outcome for one field while loading: the key is missing (and has no `load_default`), a `ValidationError` was
collected, or there is a value -/
inductive Loaded (α : Type) where
  | missing
  | invalid
  | value (a : α)

namespace Loaded

/-- was a `ValidationError` collected? -/
def isInvalid {α : Type} : Loaded α → Bool
  | invalid => true
  | _ => false

/-- the value of the keyword argument, or the default of the constructor -/
def getD {α : Type} (x : Loaded α) (d : α) : α :=
  match x with
  | value a => a
  | _ => d

/-- is the keyword argument absent? -/
def isMissing {α : Type} : Loaded α → Bool
  | missing => true
  | _ => false

end Loaded

/-- how a field is declared: `required`, `allow_none`, `load_default=None` (which implies `allow_none`) -/
structure FieldOpts where
  required : Bool := false
  allowNone : Bool := false
  defaultNone : Bool := false

/-- `Field.deserialize` for a field whose conversion cannot raise anything but a `ValidationError` (`none`) -/
def loadField {α : Type} (o : FieldOpts) (conv : Json → Option α) (key : PyStr) (d : List (PyStr × Json)) :
    Loaded (Option α) :=
  match dictGet key d with
  | none => if o.required then .invalid else if o.defaultNone then .value none else .missing
  | some .null => if o.allowNone || o.defaultNone then .value none else .invalid
  | some j => match conv j with
    | none => .invalid
    | some a => .value (some a)

/-- `fields.String._deserialize` -/
def convStr : Json → Option PyStr
  | .str s => some s
  | _ => none

/-- `fields.Int._deserialize`: `int(value)` for numbers and strings (`ValueError` and `OverflowError` become a
`ValidationError`); booleans and everything else are refused -/
def convInt : Json → Option Int
  | .num i => some i
  | .float f => f.toInt
  | .str s => pyInt s
  | _ => none

/-- a `fields.String` -/
def strField (o : FieldOpts) (key : PyStr) (d : List (PyStr × Json)) : Loaded (Option PyStr) := loadField o convStr key d

/-- `unknown=RAISE`: is there a key that belongs to no field? -/
def hasUnknown (known : List PyStr) (d : List (PyStr × Json)) : Bool := d.any fun p => !known.contains p.1

/-- one step of `fields.List._deserialize`: `ValidationError`s of the items are collected (result `none`), all other
exceptions are propagated immediately -/
def collect {α : Type} (item : PyRes α) (rest : PyRes (Option (List α))) : PyRes (Option (List α)) :=
  match item with
  | .ok a => do
    let r ← rest
    pure (r.map (a :: ·))
  | .error .validationError => do
    let _ ← rest
    pure none
  | .error e => .error e

/-- `fields.List(fields.Nested(...))`: all items -/
def loadItems {α : Type} (load : Json → PyRes α) : List Json → PyRes (Option (List α))
  | [] => .ok (some [])
  | j :: l => collect (load j) (loadItems load l)

/-- the loaded items as the outcome of a field -/
def loadedItems {α : Type} (r : PyRes (Option (List α))) : PyRes (Loaded (Option (List α))) := do
  let r ← r
  pure (match r with
    | none => .invalid
    | some l => .value (some l))

/-- `fields.List(fields.Nested(...))` -/
def loadListField {α : Type} (o : FieldOpts) (load : Json → PyRes α) (key : PyStr) (d : List (PyStr × Json)) :
    PyRes (Loaded (Option (List α))) :=
  match dictGet key d with
  | none => .ok (if o.required then .invalid else if o.defaultNone then .value none else .missing)
  | some .null => .ok (if o.allowNone || o.defaultNone then .value none else .invalid)
  | some (.arr l) => loadedItems (loadItems load l)
  | some _ => .ok .invalid

/-- `fields.Nested(...)`, neither required nor nullable -/
def loadNestedField {α : Type} (load : Json → PyRes α) (key : PyStr) (d : List (PyStr × Json)) : PyRes (Loaded α) :=
  match dictGet key d with
  | none => .ok .missing
  | some .null => .ok .invalid
  | some j => match load j with
    | .ok a => .ok (.value a)
    | .error .validationError => .ok .invalid
    | .error e => .error e

/-- `fields.String._serialize` -/
def dumpStr : Option PyStr → Json
  | none => .null
  | some s => .str s

/-! ## UUIDs -/

/-- hexadecimal digit (lower case) -/
def hexChar (n : Nat) : Char := if n < 10 then Char.ofNat (48 + n) else Char.ofNat (87 + n)

/-- the last `k` hexadecimal digits of `n` -/
def hexDigits : Nat → Nat → PyStr
  | 0, _ => []
  | k + 1, n => hexDigits k (n / 16) ++ [hexChar (n % 16)]

/-- `str(uuid)`: 8-4-4-4-12 hexadecimal digits -/
def uuidToStr (n : Nat) : PyStr :=
  let h := hexDigits 32 n
  h.take 8 ++ py!"-" ++ (h.drop 8).take 4 ++ py!"-" ++ (h.drop 12).take 4 ++ py!"-" ++ (h.drop 16).take 4 ++ py!"-"
    ++ h.drop 20

/-- value of a hexadecimal digit -/
def hexVal (c : Char) : Option Nat :=
  let n := c.toNat
  if 48 ≤ n ∧ n ≤ 57 then some (n - 48)
  else if 97 ≤ n ∧ n ≤ 102 then some (n - 87)
  else if 65 ≤ n ∧ n ≤ 70 then some (n - 55)
  else none

/-- the value of a string of hexadecimal digits -/
def parseHex (s : PyStr) : Option Nat :=
  s.foldl (fun acc c => acc.bind fun n => (hexVal c).map fun v => 16 * n + v) (some 0)

/-- value of a digit in `int(s, 16)`: decimal digits of all scripts, Latin letters -/
def hexDigitVal (c : Char) : Option Nat := if isDigit c then some (digitVal c) else hexVal c

/-- a prefix `0x` and an underscore behind it -/
def dropHexPrefix : PyStr → PyStr
  | z :: x :: s =>
    if isDigit z && digitVal z == 0 && (x == 'x' || x == 'X') then
      match s with
      | '_' :: t => t
      | t => t
    else z :: x :: s
  | s => s

/-- a sign `+` -/
def dropPlus : PyStr → PyStr
  | '+' :: u => u
  | u => u

/-- `int(s, 16)` for a string without `-`: surrounding whitespace, a sign, a prefix and single underscores between digits are allowed -/
def pyIntHex (s : PyStr) : Option Nat :=
  let t := ((s.dropWhile isIntSpace).reverse.dropWhile isIntSpace).reverse
  let parts := splitChar '_' (dropHexPrefix (dropPlus t))
  if parts.all fun p => !p.isEmpty && p.all fun c => (hexDigitVal c).isSome then
    some (parts.flatten.foldl (fun n c => 16 * n + (hexDigitVal c).getD 0) 0)
  else none

/-- `s.strip('{}')` -/
def stripBraces (s : PyStr) : PyStr :=
  ((s.dropWhile fun c => c == '{' || c == '}').reverse.dropWhile fun c => c == '{' || c == '}').reverse

/-- `uuid.UUID(s)`: `urn:`, `uuid:`, braces and hyphens are removed, 32 characters have to remain, which `int(hex, 16)` accepts -/
def parseUuid (s : PyStr) : Option Nat :=
  let hex := replaceChar '-' [] (stripBraces (replaceStr py!"uuid:" [] (replaceStr py!"urn:" [] s)))
  if hex.length ≠ 32 then none else pyIntHex hex

/-- `fields.UUID._deserialize` -/
def convUuid : Json → Option Nat
  | .str s => parseUuid s
  | _ => none

end Verif
