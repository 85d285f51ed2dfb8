import Verif.Spec.Float
import Verif.Py.JsonText
/-!
# Specification vocabulary: the grammar of JSON (RFC 8259), with the three constants Python allows in addition

Written without reference to the parser: which texts denote which values.
-/

namespace Verif

/-- white space between the tokens -/
def JsonBlank (s : PyStr) : Prop := ∀ c ∈ s, c = ' ' ∨ c = '\t' ∨ c = '\n' ∨ c = '\r'

/-- a hexadecimal digit and its value -/
inductive HexDigit : Char → Nat → Prop
  | digit (n : Nat) (h : n < 10) : HexDigit (Char.ofNat (48 + n)) n
  | lower (n : Nat) (h : n < 6) : HexDigit (Char.ofNat (97 + n)) (10 + n)
  | upper (n : Nat) (h : n < 6) : HexDigit (Char.ofNat (65 + n)) (10 + n)

/-- the letter of a simple escape and the character it stands for -/
inductive SimpleEscape : Char → Char → Prop
  | quote : SimpleEscape '"' '"'
  | backslash : SimpleEscape '\\' '\\'
  | slash : SimpleEscape '/' '/'
  | backspace : SimpleEscape 'b' (Char.ofNat 8)
  | formFeed : SimpleEscape 'f' (Char.ofNat 12)
  | lineFeed : SimpleEscape 'n' '\n'
  | carriageReturn : SimpleEscape 'r' '\r'
  | tab : SimpleEscape 't' '\t'

/-- what is written between the quotes, and the code points and UTF-16 units it denotes -/
inductive JsonUnits : PyStr → List Nat → Prop
  | nil : JsonUnits [] []
  | plain {c : Char} {s : PyStr} {u : List Nat} (h1 : c ≠ '"') (h2 : c ≠ '\\') (h3 : 32 ≤ c.toNat) (h : JsonUnits s u) :
      JsonUnits (c :: s) (c.toNat :: u)
  | escape {x y : Char} {s : PyStr} {u : List Nat} (hx : SimpleEscape x y) (h : JsonUnits s u) :
      JsonUnits ('\\' :: x :: s) (y.toNat :: u)
  | hex {a b c d : Char} {i j k l : Nat} {s : PyStr} {u : List Nat} (ha : HexDigit a i) (hb : HexDigit b j) (hc : HexDigit c k)
      (hd : HexDigit d l) (h : JsonUnits s u) :
      JsonUnits ('\\' :: 'u' :: a :: b :: c :: d :: s) ((4096 * i + 256 * j + 16 * k + l) :: u)

/-- the characters of a sequence of code points and UTF-16 units: a character is its code point or a surrogate pair -/
inductive UnitsDenote : List Nat → PyStr → Prop
  | nil : UnitsDenote [] []
  | single {c : Char} {u : List Nat} {s : PyStr} (h : UnitsDenote u s) : UnitsDenote (c.toNat :: u) (c :: s)
  | pair {c : Char} {u : List Nat} {s : PyStr} (h : UnitsDenote u s) (hi lo : Nat) (h1 : hi < 1024) (h2 : lo < 1024)
      (hc : c.toNat = 0x10000 + 1024 * hi + lo) : UnitsDenote ((0xD800 + hi) :: (0xDC00 + lo) :: u) (c :: s)

/-- a string literal and its value -/
inductive JsonString : PyStr → PyStr → Prop
  | mk {body s : PyStr} {u : List Nat} (h : JsonUnits body u) (hu : UnitsDenote u s) : JsonString ('"' :: (body ++ ['"'])) s

/-- the value of a sequence of decimal digits -/
def decimalValue (ds : PyStr) : Nat := ds.foldl (fun n c => 10 * n + (c.toNat - 48)) 0

/-- an integer without sign: no leading zero -/
def JsonDigits (ds : PyStr) : Prop :=
  ds = ['0'] ∨ ∃ c t, ds = c :: t ∧ c ≠ '0' ∧ ∀ x ∈ c :: t, 48 ≤ x.toNat ∧ x.toNat ≤ 57

/-- one or more decimal digits -/
def DecimalDigits (ds : PyStr) : Prop := ds ≠ [] ∧ ∀ x ∈ ds, 48 ≤ x.toNat ∧ x.toNat ≤ 57

/-- a fraction, which may be missing, and its digits -/
inductive JsonFraction : PyStr → PyStr → Prop
  | missing : JsonFraction [] []
  | digits {ds : PyStr} (h : DecimalDigits ds) : JsonFraction ('.' :: ds) ds

/-- an exponent, which may be missing, and its value -/
inductive JsonExponent : PyStr → Int → Prop
  | missing : JsonExponent [] 0
  | plain {c : Char} {ds : PyStr} (hc : c = 'e' ∨ c = 'E') (h : DecimalDigits ds) : JsonExponent (c :: ds) (decimalValue ds)
  | plus {c : Char} {ds : PyStr} (hc : c = 'e' ∨ c = 'E') (h : DecimalDigits ds) : JsonExponent (c :: '+' :: ds) (decimalValue ds)
  | minus {c : Char} {ds : PyStr} (hc : c = 'e' ∨ c = 'E') (h : DecimalDigits ds) :
      JsonExponent (c :: '-' :: ds) (- (decimalValue ds : Int))

/-- a number without sign that is no integer literal: digits with a fraction or an exponent, and the number it denotes -/
inductive JsonDecimal : PyStr → ℚ → Prop
  | mk {ds f fs x : PyStr} {k : Int} (h : JsonDigits ds) (hf : JsonFraction f fs) (hx : JsonExponent x k) (hne : f ++ x ≠ []) :
      JsonDecimal (ds ++ (f ++ x)) (decimalValue (ds ++ fs) * 10 ^ (k - fs.length))

/-- the dictionary of a sequence of members: the keys in the order of their first occurrence, each with its last value -/
def DictOfMembers (members d : List (PyStr × Json)) : Prop :=
  d.map Prod.fst = (members.map Prod.fst).eraseDups ∧
  ∀ k v, (k, v) ∈ d → ∃ before after, members = before ++ (k, v) :: after ∧ k ∉ after.map Prod.fst

mutual
/-- a text that denotes a value -/
inductive JsonValue : PyStr → Json → Prop
  | null : JsonValue py!"null" .null
  | true : JsonValue py!"true" (.bool Bool.true)
  | false : JsonValue py!"false" (.bool Bool.false)
  | integer {ds : PyStr} (h : JsonDigits ds) : JsonValue ds (.num (decimalValue ds))
  | negative {ds : PyStr} (h : JsonDigits ds) : JsonValue ('-' :: ds) (.num (- (decimalValue ds : Int)))
  | float {t : PyStr} {q : ℚ} {v : PyFloat} (h : JsonDecimal t q) (hv : FloatOf Bool.false q v) : JsonValue t (.float v)
  | negativeFloat {t : PyStr} {q : ℚ} {v : PyFloat} (h : JsonDecimal t q) (hv : FloatOf Bool.true q v) :
      JsonValue ('-' :: t) (.float v)
  | nan : JsonValue py!"NaN" (.float .nan)
  | infinity : JsonValue py!"Infinity" (.float (.inf Bool.false))
  | negativeInfinity : JsonValue py!"-Infinity" (.float (.inf Bool.true))
  | string {t s : PyStr} (h : JsonString t s) : JsonValue t (.str s)
  | emptyArray {w : PyStr} (hw : JsonBlank w) : JsonValue ('[' :: (w ++ [']'])) (.arr [])
  | array {t : PyStr} {l : List Json} (h : JsonItems t l) : JsonValue ('[' :: (t ++ [']'])) (.arr l)
  | emptyObject {w : PyStr} (hw : JsonBlank w) : JsonValue ('{' :: (w ++ ['}'])) (.obj [])
  | object {t : PyStr} {members d : List (PyStr × Json)} (h : JsonMembers t members) (hd : DictOfMembers members d) :
      JsonValue ('{' :: (t ++ ['}'])) (.obj d)
/-- values separated by commas -/
inductive JsonItems : PyStr → List Json → Prop
  | last {w t w' : PyStr} {j : Json} (hw : JsonBlank w) (h : JsonValue t j) (hw' : JsonBlank w') : JsonItems (w ++ (t ++ w')) [j]
  | cons {w t w' t' : PyStr} {j : Json} {l : List Json} (hw : JsonBlank w) (h : JsonValue t j) (hw' : JsonBlank w')
      (hl : JsonItems t' l) : JsonItems (w ++ (t ++ (w' ++ ',' :: t'))) (j :: l)
/-- members `"key": value` separated by commas -/
inductive JsonMembers : PyStr → List (PyStr × Json) → Prop
  | last {w k w1 w2 t w3 : PyStr} {key : PyStr} {j : Json} (hw : JsonBlank w) (hk : JsonString k key) (h1 : JsonBlank w1)
      (h2 : JsonBlank w2) (h : JsonValue t j) (h3 : JsonBlank w3) :
      JsonMembers (w ++ (k ++ (w1 ++ ':' :: (w2 ++ (t ++ w3))))) [(key, j)]
  | cons {w k w1 w2 t w3 t' : PyStr} {key : PyStr} {j : Json} {l : List (PyStr × Json)} (hw : JsonBlank w) (hk : JsonString k key)
      (h1 : JsonBlank w1) (h2 : JsonBlank w2) (h : JsonValue t j) (h3 : JsonBlank w3) (hl : JsonMembers t' l) :
      JsonMembers (w ++ (k ++ (w1 ++ ':' :: (w2 ++ (t ++ (w3 ++ ',' :: t')))))) ((key, j) :: l)
end

/-- a document: a value between white space -/
def JsonDocument (text : PyStr) (j : Json) : Prop :=
  ∃ w t w', text = w ++ (t ++ w') ∧ JsonBlank w ∧ JsonValue t j ∧ JsonBlank w'

end Verif
