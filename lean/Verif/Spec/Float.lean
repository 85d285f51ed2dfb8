import Mathlib.Algebra.Order.Field.Rat
import Mathlib.Algebra.Order.AbsoluteValue.Basic
import Verif.Py.Float
/-!
# Specification vocabulary: rounding to double precision (IEEE 754)

Written without reference to the algorithm: which double is the nearest one to a rational number.
-/

namespace Verif

/-- `m * 2^e` is a finite double: 53 bits for the significand, the exponent of the last bit between -1074 and 971 -/
def IsDouble (m : Nat) (e : Int) : Prop := m < 2 ^ 53 ∧ -1074 ≤ e ∧ e ≤ 971

/-- `m * 2^e` is the double nearest to `q`, in normal form. If two doubles are nearest, it is the one with the even significand. -/
structure NearestDouble (q : ℚ) (m : Nat) (e : Int) : Prop where
  isDouble : IsDouble m e
  normal : 2 ^ 52 ≤ m ∨ e = -1074
  nearest : ∀ m' e', IsDouble m' e' → |q - m * 2 ^ e| ≤ |q - m' * 2 ^ e'|
  even : ∀ m' e', IsDouble m' e' → |q - m * 2 ^ e| = |q - m' * 2 ^ e'| → (m' : ℚ) * 2 ^ e' = m * 2 ^ e ∨ m % 2 = 0

/-- the `float` for the number `± q`: the nearest double, or infinity if the number is half a unit of the last place above the
greatest double or more -/
inductive FloatOf (negative : Bool) (q : ℚ) : PyFloat → Prop
  | finite {m : Nat} {e : Int} (h : q < (2 ^ 53 - 1 / 2) * 2 ^ 971) (hn : NearestDouble q m e) :
      FloatOf negative q (.finite negative m e)
  | inf (h : (2 ^ 53 - 1 / 2) * 2 ^ 971 ≤ q) : FloatOf negative q (.inf negative)

/-- the integer part of a finite `float` -/
inductive IntegerPart : PyFloat → Int → Prop
  | positive {m n : Nat} {e : Int} (h1 : (n : ℚ) ≤ m * 2 ^ e) (h2 : (m : ℚ) * 2 ^ e < n + 1) :
      IntegerPart (.finite false m e) n
  | negative {m n : Nat} {e : Int} (h1 : (n : ℚ) ≤ m * 2 ^ e) (h2 : (m : ℚ) * 2 ^ e < n + 1) :
      IntegerPart (.finite true m e) (- (n : Int))

end Verif
