import Verif.Py.Unicode
/-!
# What a `.tree` file looks like

A description of the texts of `.tree` files, without regular expressions.
-/

namespace Verif
namespace TreeSpec

/-- parts of a kind, at least one, with a separator between them -/
inductive Separated (sep : Char) (Part : PyStr → Prop) : PyStr → Prop
  | one {p} : Part p → Separated sep Part p
  | more {p s} : Part p → Separated sep Part s → Separated sep Part (p ++ sep :: s)

/-- a sequence of parts of a kind, possibly none -/
inductive Many (Part : PyStr → Prop) : PyStr → Prop
  | none : Many Part []
  | more {p s} : Part p → Many Part s → Many Part (p ++ s)

/-- ASCII digits, at least one -/
def Number (s : PyStr) : Prop := s ≠ [] ∧ ∀ c ∈ s, '0' ≤ c ∧ c ≤ '9'

/-- letters, decimal digits (of any script), `-` and `_`, at least one -/
def Entry (s : PyStr) : Prop :=
  s ≠ [] ∧ ∀ c ∈ s, ('A' ≤ c ∧ c ≤ 'Z') ∨ ('a' ≤ c ∧ c ≤ 'z') ∨ isDigit c = true ∨ c = '-' ∨ c = '_'

/-- three or more capital letters, e.g. `NAD` -/
def SegmentKey (s : PyStr) : Prop := 3 ≤ s.length ∧ ∀ c ∈ s, 'A' ≤ c ∧ c ≤ 'Z'

/-- how mandatory something is -/
def Mark (s : PyStr) : Prop := s ∈ [py!"M", py!"R", py!"N", py!"C", py!"D", py!"O"]

/-- alphanumeric, numeric ... -/
def CharacterSet (s : PyStr) : Prop := s ∈ [py!"an", py!"nn", py!"np", py!"aa"]

/-- a segment group: `SG4`, `UNH`, `UNB` -/
inductive GroupKey : PyStr → Prop
  | sg {n} : Number n → GroupKey (py!"SG" ++ n)
  | unh : GroupKey py!"UNH"
  | unb : GroupKey py!"UNB"

/-- one data element: `M`, `Man`, `Man3`, `Man3{E01.E02}` -/
inductive Composite : PyStr → Prop
  | mark {m} : Mark m → Composite m
  | kind {m c} : Mark m → CharacterSet c → Composite (m ++ c)
  | length {m c n} : Mark m → CharacterSet c → Number n → Composite (m ++ c ++ n)
  | pool {m c n v} : Mark m → CharacterSet c → Number n → Separated '.' Entry v →
      Composite (m ++ c ++ n ++ ('{' :: v ++ ['}']))

/-- several data elements: `C*Can3+C*Can17*Can256` -/
def DataElements : PyStr → Prop := Separated '+' (Separated '*' Composite)

/-- `LOC#1#0=237` or `LOC#1#0!=237` -/
inductive Comparison : PyStr → Prop
  | equal {k a b v} : SegmentKey k → Number a → Number b → Entry v → Comparison (k ++ '#' :: a ++ '#' :: b ++ '=' :: v)
  | unequal {k a b v} : SegmentKey k → Number a → Number b → Entry v →
      Comparison (k ++ '#' :: a ++ '#' :: b ++ '!' :: '=' :: v)

/-- data elements under a condition: `(LOC#1#0=237|LOC#1#0=107)M*Man3|`, where the bar at the end may be missing -/
inductive Conditioned : PyStr → Prop
  | open {c d} : Separated '|' Comparison c → DataElements d → Conditioned ('(' :: c ++ ')' :: d)
  | closed {c d} : Separated '|' Comparison c → DataElements d → Conditioned ('(' :: c ++ ')' :: d ++ ['|'])

/-- what stands between semicolons: first data elements with a semicolon or conditioned ones, then data elements or conditioned ones -/
inductive Definition : PyStr → Prop
  | pair {a b} : DataElements a → DataElements b ∨ Many Conditioned b → Definition (a ++ ';' :: b)
  | conditioned {a b} : Many Conditioned a → DataElements b ∨ Many Conditioned b → Definition (a ++ b)

/-- `CTA[M;M;C*Can3;C*Ran3{IC}]` -/
inductive SegmentText : PyStr → Prop
  | segment {k d} : SegmentKey k → Separated ';' Definition d → SegmentText (k ++ '[' :: d ++ [']'])

/-- a segment, or a reference to a segment group: `SG4[C;R]` -/
inductive Item : PyStr → Prop
  | segment {s} : SegmentText s → Item s
  | reference {k a b} : GroupKey k → Mark a → Mark b → Item (k ++ '[' :: a ++ ';' :: b ++ [']'])

/-- a line: the segment group (with or without colon, or missing), a segment, further items behind commas -/
inductive Line : PyStr → Prop
  | line {k s} {items : List PyStr} : k = [] ∨ GroupKey k ∨ (∃ g, GroupKey g ∧ k = g ++ [':']) → SegmentText s →
      (∀ i ∈ items, Item i) → Line (k ++ s ++ (items.map (',' :: ·)).flatten)

/-- the content of a `.tree` file: `/:`, then lines -/
inductive Tree : PyStr → Prop
  | tree {s} : Separated '\n' Line s → Tree (py!"/:" ++ s)

/-- nothing but blanks, tabs, form feeds and line ends -/
def Blank (s : PyStr) : Prop := ∀ c ∈ s, c = ' ' ∨ c = '\t' ∨ c = Char.ofNat 12 ∨ c = '\r' ∨ c = '\n'

end TreeSpec
end Verif
