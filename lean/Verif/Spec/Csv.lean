import Verif.Proofs.White
import Verif.Model.Csv
import Mathlib.Data.List.Forall2
/-!
# Specification of the CSV reader
-/

namespace Verif

/-- the text of a cell (`none` if there is no such cell) -/
def RawRow.cell (row : RawRow) (key : PyStr) : Option PyStr := (dictGet key row).getD none

/-- there is such a column -/
def RawRow.HasColumn (row : RawRow) (key : PyStr) : Prop := ∃ v, dictGet key row = some v

/-- the row of a record: the cell of a column is the cell at the position of the last column of that name, `None` if the record
is too short; there are no other columns -/
def RowOf (header record : List PyStr) (row : RawRow) : Prop :=
  (∀ name, row.HasColumn name → name ∈ header) ∧
  ∀ before name after, header = before ++ name :: after → name ∉ after →
    row.HasColumn name ∧ row.cell name = record[before.length]?

/-- the text of an integer: digits in groups that are separated by single underscores, possibly with a sign, possibly surrounded
by whitespace -/
def IntText (s : PyStr) (i : Int) : Prop :=
  ∃ (a sign b : PyStr) (groups : List PyStr), s = a ++ sign ++ List.intercalate ['_'] groups ++ b ∧
    (∀ c ∈ a ++ b, c ∈ whiteSpace ∧ c ∉ ['\x1c', '\x1d', '\x1e', '\x1f']) ∧
    groups ≠ [] ∧ (∀ g ∈ groups, g ≠ [] ∧ ∀ c ∈ g, isDigit c = true) ∧
    ((sign = [] ∨ sign = ['+']) ∧ i = decToNat groups.flatten ∨ sign = ['-'] ∧ i = -decToNat groups.flatten)

/-! ## headings -/

/-- all other columns are empty -/
def RawRow.OtherwiseBlank (row : RawRow) : Prop :=
  ∀ key ∈ [py!"Segment", py!"Datenelement", py!"Codes und Qualifier", py!"Beschreibung", py!"Bedingung"],
    ∀ t, row.cell key = some t → ∀ c ∈ t, c ∈ whiteSpace

/-- the row only holds the heading `g` -/
def SectionOnly (row : RawRow) (g : PyStr) : Prop :=
  row.cell py!"Segment Gruppe" = some g ∧ g ≠ [] ∧ ¬ py!"SG" <+: g ∧ row.OtherwiseBlank

/-- two blanks are replaced by one, from left to right -/
def reduceBlanks : PyStr → PyStr
  | ' ' :: ' ' :: s => ' ' :: reduceBlanks s
  | c :: s => c :: reduceBlanks s
  | [] => []

/-- the text of several headings: each preceded by a space, then trimmed, then double spaces reduced -/
def joinedHeading (gs : List PyStr) : PyStr := reduceBlanks (trim (gs.flatMap fun g => ' ' :: g))

/-- `h` is the heading row for the headings `gs` in front of `row`: it holds the joined text, the index before that of `row`,
and nothing else -/
def HeadingRow (gs : List PyStr) (row h : RawRow) : Prop :=
  (∃ t i, row.cell [] = some t ∧ IntText t i ∧ h.cell [] = some (intToDec (i - 1))) ∧
  h.cell py!"Segment Gruppe" = some (joinedHeading gs) ∧
  (∀ key ∈ [py!"Segment", py!"Datenelement", py!"Codes und Qualifier", py!"Beschreibung", py!"Bedingung"],
    h.cell key = some []) ∧
  ∀ key, h.HasColumn key → key ∈ [[], py!"Segment Gruppe", py!"Segment", py!"Datenelement", py!"Codes und Qualifier",
    py!"Beschreibung", py!"Bedingung"]

/-- `Merged rows out`: rows that are no headings are kept, a maximal run of headings in front of such a row becomes one heading
row, a run of headings at the very end is dropped -/
inductive Merged : List RawRow → List RawRow → Prop
  | nil {hs : List RawRow} (h : ∀ r ∈ hs, ∃ g, SectionOnly r g) : Merged hs []
  | row {r : RawRow} {rows out : List RawRow} (h : ¬ ∃ g, SectionOnly r g) (rest : Merged rows out) :
      Merged (r :: rows) (r :: out)
  | headings {hs : List RawRow} {gs : List PyStr} {r h : RawRow} {rows out : List RawRow} (ne : hs ≠ [])
      (hg : List.Forall₂ SectionOnly hs gs) (hr : ¬ ∃ g, SectionOnly r g) (hh : HeadingRow gs r h) (rest : Merged rows out) :
      Merged (hs ++ r :: rows) (h :: r :: out)

/-! ## codes -/

/-- at least two of the characters A-Z, 0-9, "-" and "i", not starting with "MP-ID" -/
def IsUpperCode (s : PyStr) : Prop :=
  2 ≤ s.length ∧ (∀ c ∈ s, c ∈ py!"ABCDEFGHIJKLMNOPQRSTUVWXYZ0123456789-i") ∧ ¬ py!"MP-ID" <+: s

/-- a number, possibly with decimals, possibly followed by a letter -/
def IsNumericCode (s : PyStr) : Prop :=
  ∃ n d l : PyStr, s = n ++ d ++ l ∧ n ≠ [] ∧ (∀ c ∈ n, isDigit c = true) ∧
    (d = [] ∨ ∃ e, d = '.' :: e ∧ e ≠ [] ∧ ∀ c ∈ e, isDigit c = true) ∧ (l = [] ∨ ∃ c, l = [c] ∧ c ∈ smallLetters)

/-- capital letters, digits and hyphens, possibly with the prefix "GABi" and the suffix "RLMoT" or "RLMmT" -/
def IsGabiCode (s : PyStr) : Prop :=
  ¬ py!"MP-ID" <+: s ∧ ∃ p m q : PyStr, s = p ++ m ++ q ∧ (p = [] ∨ p = py!"GABi") ∧
    (q = [] ∨ q = py!"RLMoT" ∨ q = py!"RLMmT") ∧ m ≠ [] ∧ ∀ c ∈ m, c ∈ capitals ∨ isDigit c = true ∨ c = '-'

/-- E_ or G_ followed by digits -/
def IsEbdCode (s : PyStr) : Prop :=
  ∃ d : PyStr, (s = 'E' :: '_' :: d ∨ s = 'G' :: '_' :: d) ∧ d ≠ [] ∧ ∀ c ∈ d, isDigit c = true

/-- a text that looks like a value pool entry -/
def LooksLikeEntry (s : PyStr) : Prop :=
  IsUpperCode s ∨ IsNumericCode s ∨ (∃ c, s = [c] ∧ isUpperFixed c = true) ∨ IsGabiCode s ∨ IsEbdCode s

/-- a text that is taken for a segment group (a newline at the end is tolerated) -/
def LooksLikeGroup (s : PyStr) : Prop := IsUpperCode s ∨ ∃ t, s = t ++ ['\n'] ∧ IsUpperCode t

/-- the stripped text, `none` if nothing is left -/
def nonBlank (x : Option PyStr) : Option PyStr :=
  match x with
  | none => none
  | some s => if trim s = [] then none else some (trim s)

/-- the first input looks like an entry: the order is kept, otherwise the inputs are swapped -/
def Separated (x y a b : Option PyStr) : Prop :=
  ((∃ s, nonBlank x = some s ∧ LooksLikeEntry s) ∧ a = nonBlank x ∧ b = nonBlank y) ∨
  ((¬ ∃ s, nonBlank x = some s ∧ LooksLikeEntry s) ∧ a = nonBlank y ∧ b = nonBlank x)

/-! ## conditions -/

/-- `text` contains the condition `[key] body` in front of `rest`: the body is not empty, without brackets, and ends at a
bracket or at the end of the text -/
def ConditionAt (text key body rest : PyStr) : Prop :=
  (∃ before, text = before ++ '[' :: key ++ ']' :: body ++ rest) ∧ key ≠ [] ∧ (∀ c ∈ key, isDigit c = true) ∧
    body ≠ [] ∧ (∀ c ∈ body, c ≠ '[' ∧ c ≠ ']') ∧ (rest = [] ∨ ∃ r, rest = '[' :: r ∨ rest = ']' :: r)

/-- the last condition with the given key in the text has the given body -/
def LastCondition (text key body : PyStr) : Prop :=
  ∃ rest, ConditionAt text key body rest ∧ ¬ ∃ body' rest', ConditionAt rest key body' rest'

/-! ## lines -/

/-- a row that is taken for a heading -/
def IsHeadingRow (row : RawRow) (g : PyStr) : Prop :=
  row.cell py!"Segment Gruppe" = some g ∧ 3 ≤ g.length ∧ ¬ LooksLikeGroup g

/-- the current name of a section -/
def CurrentName (s t : PyStr) : Prop :=
  (s = py!"OBIS-Kennzahl der Zähleinrichtung / Mengenumwerter / Smartmeter-Gateway" ∧
    t = py!"OBIS-Kennzahl der Zähleinrichtung / Mengenumwerter") ∨
  (s = py!"OBIS-Daten der Zähleinrichtung / Mengenumwerter / Smartmeter-Gateway" ∧
    t = py!"OBIS-Daten der Zähleinrichtung / Mengenumwerter") ∨
  (s = py!"OBIS Daten für Lieferant relevant" ∧ t = py!"OBIS Daten für Marktrolle relevant") ∨
  (s ≠ py!"OBIS-Kennzahl der Zähleinrichtung / Mengenumwerter / Smartmeter-Gateway" ∧
    s ≠ py!"OBIS-Daten der Zähleinrichtung / Mengenumwerter / Smartmeter-Gateway" ∧
    s ≠ py!"OBIS Daten für Lieferant relevant" ∧ t = s)

/-- the section of a row below the given rows: the last heading, stripped and with its current name -/
def SectionBelow (above : List RawRow) (name : Option PyStr) : Prop :=
  ((¬ ∃ r ∈ above, ∃ g, IsHeadingRow r g) ∧ name = none) ∨
  ∃ before row after g, above = before ++ row :: after ∧ IsHeadingRow row g ∧ (¬ ∃ r ∈ after, ∃ g, IsHeadingRow r g) ∧
    ((trim g = [] ∧ name = none) ∨ (trim g ≠ [] ∧ ∃ t, CurrentName (trim g) t ∧ name = some t))

/-- `None` for an empty text -/
def nonEmpty (x : Option PyStr) : Option PyStr :=
  match x with
  | some (c :: s) => some (c :: s)
  | _ => none

/-- the line of a row -/
structure LineOfRow (pruefidentifikator : PyStr) (above : List RawRow) (row : RawRow) (l : AhbLine) : Prop where
  group : (∃ g, row.cell py!"Segment Gruppe" = some g ∧ LooksLikeGroup g ∧ l.segmentGroupKey = some g) ∨
    ((¬ ∃ g, row.cell py!"Segment Gruppe" = some g ∧ LooksLikeGroup g) ∧ l.segmentGroupKey = none)
  segment : l.segmentCode = nonEmpty (row.cell py!"Segment")
  dataElement : l.dataElement = nonEmpty (row.cell py!"Datenelement")
  entry : Separated (row.cell py!"Codes und Qualifier") (row.cell py!"Beschreibung") l.valuePoolEntry l.name
  expression : l.ahbExpression = nonEmpty (row.cell pruefidentifikator)
  sectionName : SectionBelow above l.sectionName
  guid : l.guid.isSome
  rest : l.segmentId = none ∧ l.conditions = none

/-- the row can be read -/
def ReadableRow (pruefidentifikator : PyStr) (row : RawRow) : Prop :=
  (∀ key ∈ [py!"Codes und Qualifier", py!"Beschreibung", py!"Bedingung"], row.HasColumn key) ∧
  (∃ g, row.cell py!"Segment Gruppe" = some g) ∧
  ((∃ g, IsHeadingRow row g) ∨
    ((∀ key ∈ [py!"Segment", py!"Datenelement", pruefidentifikator], row.HasColumn key) ∧
      ∀ t, row.cell pruefidentifikator = some t → t = [] ∨ ∃ c ∈ t, c ∉ whiteSpace))

/-- five digits -/
def IsFiveDigits (s : PyStr) : Prop := s.length = 5 ∧ ∀ c ∈ s, isDigit c = true

/-- a heading as it occurs in real AHBs: at least three characters that are no whitespace, one of which is not an upper case
letter, a digit, a hyphen or an "i" -/
def ProperHeading (g : PyStr) : Prop :=
  3 ≤ (g.filter fun c => decide (c ∉ whiteSpace)).length ∧
    ∃ c ∈ g, c ∉ whiteSpace ∧ c ∉ py!"ABCDEFGHIJKLMNOPQRSTUVWXYZ0123456789-i"

/-- a row of a complete CSV file: all columns are there and filled in, the unnamed column contains an integer, expressions are
empty or not blank, and headings are proper headings -/
def CompleteRow (pruefidentifikator : PyStr) (row : RawRow) : Prop :=
  (∀ key ∈ [py!"Segment Gruppe", py!"Segment", py!"Datenelement", py!"Codes und Qualifier", py!"Beschreibung",
    py!"Bedingung", pruefidentifikator], ∃ t, row.cell key = some t) ∧
  (∃ t i, row.cell [] = some t ∧ IntText t i) ∧
  (∀ t, row.cell pruefidentifikator = some t → t = [] ∨ ∃ c ∈ t, c ∉ whiteSpace) ∧
  ∀ g, SectionOnly row g → ProperHeading g

end Verif
