import Verif.Proofs.White
import Verif.Py.Unicode
import Mathlib.Data.List.Forall2
/-!
# Specification vocabulary: the texts that `uuid.UUID` accepts
-/

namespace Verif

/-- `t` is `s` without the occurrences of `word`, looked for from left to right -/
inductive Without (word : PyStr) : PyStr → PyStr → Prop
  | none {s : PyStr} (h : ¬ word <:+: s) : Without word s s
  | first {a s t : PyStr} (h : ¬ word <:+: a ++ word.dropLast) (ht : Without word s t) : Without word (a ++ word ++ s) (a ++ t)

/-- a digit of a hexadecimal number and its value: a decimal digit of any script or a Latin letter -/
inductive IntDigit16 : Char → Nat → Prop
  | digit {c : Char} (h : isDigit c = true) : IntDigit16 c (digitVal c)
  | lower (n : Nat) (h : n < 6) : IntDigit16 (Char.ofNat (97 + n)) (10 + n)
  | upper (n : Nat) (h : n < 6) : IntDigit16 (Char.ofNat (65 + n)) (10 + n)

/-- the prefix of a hexadecimal number, which may be missing: a zero of any script, the letter and possibly an underscore -/
inductive HexPrefix : PyStr → Prop
  | missing : HexPrefix []
  | letter {z x : Char} (hz : isDigit z = true) (h0 : digitVal z = 0) (hx : x = 'x' ∨ x = 'X') : HexPrefix [z, x]
  | underscore {z x : Char} (hz : isDigit z = true) (h0 : digitVal z = 0) (hx : x = 'x' ∨ x = 'X') : HexPrefix [z, x, '_']

/-- the text of a hexadecimal number: digits in groups that are separated by single underscores, possibly with a sign `+` and a
prefix, possibly surrounded by whitespace -/
def HexText (s : PyStr) (n : Nat) : Prop :=
  ∃ (a sign pre b : PyStr) (groups : List PyStr) (values : List Nat),
    s = a ++ (sign ++ (pre ++ List.intercalate ['_'] groups)) ++ b ∧
    (∀ c ∈ a ++ b, c ∈ whiteSpace ∧ c ∉ ['\x1c', '\x1d', '\x1e', '\x1f']) ∧
    (sign = [] ∨ sign = ['+']) ∧ HexPrefix pre ∧
    groups ≠ [] ∧ (∀ g ∈ groups, g ≠ []) ∧ List.Forall₂ IntDigit16 groups.flatten values ∧
    n = values.foldl (fun n v => 16 * n + v) 0

/-- a text of a UUID: without `urn:` and `uuid:`, without braces at both ends and without hyphens it is the text of a hexadecimal
number with 32 characters -/
def UuidText (s : PyStr) (n : Nat) : Prop :=
  ∃ s1 s2 a s3 b : PyStr, Without py!"urn:" s s1 ∧ Without py!"uuid:" s1 s2 ∧ s2 = a ++ s3 ++ b ∧ (∀ c ∈ a ++ b, c = '{' ∨ c = '}') ∧
    (s3.filter fun c => c != '-').length = 32 ∧ HexText (s3.filter fun c => c != '-') n

end Verif
