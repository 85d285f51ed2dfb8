import Verif.Py.JsonText
/-!
# Model of `repr` of strings, lists of records and of attrs classes

`str.isprintable` depends on the version of the Unicode data base; it is a parameter `printable`, which is only asked for
characters above `~`.
-/

namespace Verif

/-- the quote used by `repr(s)`: `"` if the string contains `'` but not `"`, otherwise `'`
(CPython: Objects/unicodeobject.c, `unicode_repr`; serves mig_ahb_matching.py:211) -/
def reprQuote (s : PyStr) : Char := if '\'' ∈ s ∧ '"' ∉ s then '"' else '\''

/-- one character in `repr(s)` (CPython: Objects/unicodeobject.c, `unicode_repr`; serves mig_ahb_matching.py:211) -/
def reprChar (printable : Char → Bool) (quote c : Char) : PyStr :=
  if c = quote ∨ c = '\\' then ['\\', c]
  else if c = '\t' then py!"\\t"
  else if c = '\n' then py!"\\n"
  else if c = '\r' then py!"\\r"
  else if c.toNat < 32 ∨ c.toNat = 127 then '\\' :: 'x' :: hexDigits 2 c.toNat
  else if c.toNat < 127 ∨ printable c = true then [c]
  else if c.toNat ≤ 0xff then '\\' :: 'x' :: hexDigits 2 c.toNat
  else if c.toNat ≤ 0xffff then '\\' :: 'u' :: hexDigits 4 c.toNat
  else '\\' :: 'U' :: hexDigits 8 c.toNat

/-- `repr(s)` (serves mig_ahb_matching.py:211) -/
def reprStr (printable : Char → Bool) (s : PyStr) : PyStr :=
  reprQuote s :: (s.flatMap (reprChar printable (reprQuote s)) ++ [reprQuote s])

/-- `repr` of an `Optional[str]` (serves mig_ahb_matching.py:211) -/
def reprOptStr (printable : Char → Bool) : Option PyStr → PyStr
  | none => py!"None"
  | some s => reprStr printable s

end Verif
