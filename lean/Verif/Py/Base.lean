/-!
# Python runtime pieces: exceptions and strings

Python `str` is modelled as a list of Unicode scalar values (`List Char`); lone surrogates are not modelled.
-/

namespace Verif

/-- The exception classes that the modelled code (or the modelled library calls) can raise.
`valueError` stands for `ValueError` and its subclasses as far as `except ValueError` is concerned. -/
inductive Exc where
  | valueError
  | typeError
  | indexError
  | keyError
  | attributeError
  | unboundLocalError
  | notImplementedError
  | assertionError
  /-- marshmallow's `ValidationError` (not a `ValueError`) -/
  | validationError
  | fileNotFoundError
  /-- `click.Abort` -/
  | abort
  /-- any other exception raised by an external collaborator -/
  | other
  deriving DecidableEq, Repr, Inhabited

/-- the result of a Python call that may raise -/
abbrev PyRes (α : Type) := Except Exc α

/-- result values can be compared (used by the concrete `decide` examples) -/
instance {ε α : Type} [DecidableEq ε] [DecidableEq α] : DecidableEq (Except ε α)
  | .error a, .error b =>
    if h : a = b then isTrue (by rw [h]) else isFalse (by intro h'; injection h'; exact h (by assumption))
  | .ok a, .ok b =>
    if h : a = b then isTrue (by rw [h]) else isFalse (by intro h'; injection h'; exact h (by assumption))
  | .error _, .ok _ => isFalse (by intro h; injection h)
  | .ok _, .error _ => isFalse (by intro h; injection h)

/-- a Python `str`: a sequence of code points -/
abbrev PyStr := List Char

open Lean in
/-- `py!"abc"` is the literal list of characters of "abc" -/
macro:max "py!" s:str : term => do
  let cs := s.getString.toList.map fun c => Syntax.mkCharLit c
  `(([$[$(cs.toArray)],*] : List Char))

/-! ## character classes -/

/-- `str.isspace` / regex `\s` / the characters removed by `str.strip()` (Unicode 14/15 tables of CPython 3.11/3.12) -/
def isSpace (c : Char) : Bool :=
  let n := c.toNat
  (9 ≤ n && n ≤ 13) || (28 ≤ n && n ≤ 32) || n == 133 || n == 160 || n == 5760 || (8192 ≤ n && n ≤ 8202)
    || (8232 ≤ n && n ≤ 8233) || n == 8239 || n == 8287 || n == 12288

/-- regex class `[A-Z]` -/
def isAZ (c : Char) : Bool := 65 ≤ c.toNat && c.toNat ≤ 90

/-- regex class `[a-z]` -/
def isaz (c : Char) : Bool := 97 ≤ c.toNat && c.toNat ≤ 122

/-! ## string functions -/

/-- `str.lstrip()` -/
def lstrip (s : PyStr) : PyStr := s.dropWhile isSpace

/-- `str.rstrip()` -/
def rstrip (s : PyStr) : PyStr := (s.reverse.dropWhile isSpace).reverse

/-- `str.strip()` -/
def strip (s : PyStr) : PyStr := rstrip (lstrip s)

/-- `sub in s` for strings -/
def contains (sub : PyStr) : PyStr → Bool
  | [] => sub.isEmpty
  | c :: s => sub.isPrefixOf (c :: s) || contains sub s

/-- `s.replace(c, new)` for a single character `c` -/
def replaceChar (c : Char) (new : PyStr) (s : PyStr) : PyStr :=
  s.flatMap fun x => if x = c then new else [x]

/-- helper of `replaceStr`: `skip` characters of a replaced occurrence still have to be dropped -/
def replaceStrAux (old new : PyStr) : Nat → PyStr → PyStr
  | _, [] => []
  | 0, c :: s =>
    if old.isPrefixOf (c :: s) then new ++ replaceStrAux old new (old.length - 1) s
    else c :: replaceStrAux old new 0 s
  | skip + 1, _ :: s => replaceStrAux old new skip s

/-- `s.replace(old, new)` for a non-empty `old`: left to right, non overlapping -/
def replaceStr (old new s : PyStr) : PyStr := replaceStrAux old new 0 s

/-- `s.split(c)` for a single character separator (never empty: `"".split("|") == [""]`) -/
def splitChar (c : Char) : PyStr → List PyStr
  | [] => [[]]
  | x :: s =>
    if x = c then [] :: splitChar c s
    else match splitChar c s with
      | [] => [[x]]
      | w :: ws => (x :: w) :: ws

/-- `sep.join(parts)` -/
def pyJoin (sep : PyStr) : List PyStr → PyStr
  | [] => []
  | [w] => w
  | w :: ws => w ++ sep ++ pyJoin sep ws

/-- decimal digit of a number below ten -/
def digitChar (n : Nat) : Char := Char.ofNat (48 + n)

/-- `str(n)` for a natural number (with enough fuel) -/
def natToDecAux : Nat → Nat → PyStr
  | 0, n => [digitChar (n % 10)]
  | fuel + 1, n => if n < 10 then [digitChar n] else natToDecAux fuel (n / 10) ++ [digitChar (n % 10)]

/-- `str(n)` for a natural number -/
def natToDec (n : Nat) : PyStr := natToDecAux n n

/-- `str(i)` for an `int` -/
def intToDec : Int → PyStr
  | .ofNat n => natToDec n
  | .negSucc n => '-' :: natToDec (n + 1)

/-- Python truthiness of `Optional[str]`: `None` and `""` are false -/
def truthy : Option PyStr → Bool
  | none => false
  | some s => !s.isEmpty

/-- `s or None` for a string -/
def orNone (s : PyStr) : Option PyStr := if s.isEmpty then none else some s

/-- `s or None` for an optional string -/
def orNone? : Option PyStr → Option PyStr
  | none => none
  | some s => orNone s

end Verif
