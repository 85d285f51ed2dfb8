import Verif.Py.Base
/-!
# `float`: IEEE 754 double precision numbers

As far as the code base meets them: reading a decimal number (correctly rounded, ties to even) and `int(x)`.
-/

namespace Verif

/-- a `float`; `finite negative m e` is `± m * 2^e` -/
inductive PyFloat where
  | nan
  | inf (negative : Bool)
  | finite (negative : Bool) (m : Nat) (e : Int)
  deriving DecidableEq

/-- `⌊log2 (n / d)⌋` for positive numbers -/
def floorLog2 (n d : Nat) : Int :=
  let k : Int := (Nat.log2 n : Int) - Nat.log2 d
  if d * 2 ^ k.toNat ≤ n * 2 ^ (-k).toNat then k else k - 1

/-- the integer nearest to `n / d`, the even one if there are two -/
def roundHalfEven (n d : Nat) : Nat :=
  if 2 * (n % d) < d then n / d
  else if d < 2 * (n % d) then n / d + 1
  else n / d + n / d % 2

/-- the exponent of the last bit of the significand for the number `n / d`; subnormal numbers have the least one -/
def lastBit (n d : Nat) : Int := max (floorLog2 n d - 52) (-1074)

/-- the double nearest to `± n / d`; infinite if it would be `2^1024` or more -/
def nearestDouble (negative : Bool) (n d : Nat) : PyFloat :=
  if n = 0 then .finite negative 0 (-1074)
  else
    let e := lastBit n d
    let m := roundHalfEven (n * 2 ^ (-e).toNat) (d * 2 ^ e.toNat)
    let (m, e) := if m = 2 ^ 53 then (2 ^ 52, e + 1) else (m, e)
    if 971 < e then .inf negative else .finite negative m e

/-- `float(text)` for the number `± n * 10^k` -/
def decimalToFloat (negative : Bool) (n : Nat) (k : Int) : PyFloat :=
  nearestDouble negative (n * 10 ^ k.toNat) (10 ^ (-k).toNat)

/-- `int(x)`: the digits behind the point are dropped; `NaN` is a `ValueError`, infinity an `OverflowError` (`none`) -/
def PyFloat.toInt : PyFloat → Option Int
  | nan => none
  | inf _ => none
  | finite negative m e =>
    let n : Nat := m * 2 ^ e.toNat / 2 ^ (-e).toNat
    some (if negative then - (n : Int) else n)

end Verif
