import Verif.Py.Base
/-!
# Specification of characters: white space and letters
-/

namespace Verif

/-- the characters that Python's `str.isspace` and `str.strip` regard as white space: tabulator, line feed, line tabulation, form
feed, carriage return, the four information separators, blank, next line, and the space, line and paragraph separators of Unicode -/
def whiteSpace : List Char :=
  ['\t', '\n', '\x0b', '\x0c', '\r', '\x1c', '\x1d', '\x1e', '\x1f', ' ', '\u0085', '\u00a0', '\u1680', '\u2000', '\u2001',
   '\u2002', '\u2003', '\u2004', '\u2005', '\u2006', '\u2007', '\u2008', '\u2009', '\u200a', '\u2028', '\u2029', '\u202f',
   '\u205f', '\u3000']

/-- a text without the white space at its beginning and at its end -/
def trim (s : PyStr) : PyStr :=
  ((s.dropWhile fun c => decide (c ∈ whiteSpace)).reverse.dropWhile fun c => decide (c ∈ whiteSpace)).reverse

/-- the capital letters A to Z -/
def capitals : List Char := "ABCDEFGHIJKLMNOPQRSTUVWXYZ".toList

/-- the small letters a to z -/
def smallLetters : List Char := "abcdefghijklmnopqrstuvwxyz".toList

end Verif
