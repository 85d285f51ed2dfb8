import Verif.Py.Unicode
/-!
# `int` for strings
-/

namespace Verif

/-- the whitespace that `int` ignores: that of `str.strip()` without the separators U+001C to U+001F
(serves flat_ahb_reader.py:121, anwendungshandbuch.py:152) -/
def isIntSpace (c : Char) : Bool := isSpace c && !(28 ≤ c.toNat && c.toNat ≤ 31)

/-- `int(s)` for a string: surrounding whitespace, a sign and single underscores between digits are allowed (the limit of
4300 digits is not modelled) (serves flat_ahb_reader.py:121, anwendungshandbuch.py:152) -/
def pyInt (s : PyStr) : Option Int :=
  let digits (t : PyStr) : Option Nat :=
    let parts := splitChar '_' t
    if parts.all fun p => !p.isEmpty && p.all isDigit then some (decToNat parts.flatten) else none
  match ((s.dropWhile isIntSpace).reverse.dropWhile isIntSpace).reverse with
  | '-' :: t => (digits t).map fun (n : Nat) => -(n : Int)
  | '+' :: t => (digits t).map fun (n : Nat) => (n : Int)
  | t => (digits t).map fun (n : Nat) => (n : Int)

end Verif
