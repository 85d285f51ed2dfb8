import Verif.Proofs.White
import Mathlib.Data.List.Forall2
import Verif.Model.Ahb
import Verif.Spec.Deep
/-!
# Specification vocabulary: other texts at the same places
-/

namespace Verif

/-- what is written instead of line numbers, AHB expressions, names and section names -/
structure Relabelling where
  index : Option Int → Option Int
  expression : PyStr → PyStr
  name : PyStr → PyStr
  sectionName : Option PyStr → Option PyStr

/-- the relabelling does not change which expressions are empty, and it does not matter whether texts are stripped before or after it -/
structure Relabelling.Fair (ρ : Relabelling) : Prop where
  empty : ∀ e, ρ.expression e = [] ↔ e = []
  strip_expression : ∀ e, trim (ρ.expression e) = ρ.expression (trim e)
  strip_name : ∀ n, trim (ρ.name n) = ρ.name (trim n)

/-- the line with other texts -/
def AhbLine.relabel (ρ : Relabelling) (l : AhbLine) : AhbLine :=
  { l with index := ρ.index l.index, ahbExpression := l.ahbExpression.map ρ.expression, name := l.name.map ρ.name,
           sectionName := ρ.sectionName l.sectionName }

/-- the flat AHB with other texts in every line -/
def FlatAhb.relabel (ρ : Relabelling) (f : FlatAhb) : FlatAhb := { f with lines := f.lines.map (AhbLine.relabel ρ) }

/-- the value pool entry with other texts -/
def ValuePoolEntry.relabel (ρ : Relabelling) (e : ValuePoolEntry) : ValuePoolEntry :=
  { e with meaning := ρ.name e.meaning, ahbExpression := ρ.expression e.ahbExpression }

/-- the data element with other texts -/
def DataElement.relabel (ρ : Relabelling) (d : DataElement) : DataElement :=
  { d with kind := match d.kind with
      | .freeText e => .freeText (ρ.expression e)
      | .valuePool es => .valuePool (es.map (ValuePoolEntry.relabel ρ)) }

/-- the segment and its data elements with other texts -/
def Segment.relabel (ρ : Relabelling) (s : Segment) : Segment :=
  { s with ahbExpression := ρ.expression s.ahbExpression, ahbLineIndex := ρ.index s.ahbLineIndex,
           dataElements := s.dataElements.map (DataElement.relabel ρ), sectionName := ρ.sectionName s.sectionName }

namespace SegmentGroup
mutual
/-- the group with other texts at every depth -/
def relabel (ρ : Relabelling) : SegmentGroup → SegmentGroup
  | mk d e i s gs => mk d (ρ.expression e) (ρ.index i) (s.map (List.map (Segment.relabel ρ))) (relabelOpt ρ gs)
/-- the same for the optional sub groups -/
def relabelOpt (ρ : Relabelling) : Option (List SegmentGroup) → Option (List SegmentGroup)
  | none => none
  | some l => some (relabelList ρ l)
/-- the same, one by one -/
def relabelList (ρ : Relabelling) : List SegmentGroup → List SegmentGroup
  | [] => []
  | g :: l => relabel ρ g :: relabelList ρ l
end
end SegmentGroup

/-- the deep AHB with other texts at every depth -/
def DeepAhb.relabel (ρ : Relabelling) (a : DeepAhb) : DeepAhb := { a with lines := a.lines.map (SegmentGroup.relabel ρ) }

/-- every line number becomes `None`, every expression that is not blank becomes `X`, every name the empty text, and every section
name `None`: the structure remains -/
def Relabelling.erase : Relabelling where
  index _ := none
  expression e := if trim e = [] then e else ['X']
  name _ := []
  sectionName _ := none

/-- the deep AHBs have the same groups, segments, data elements, qualifiers, paths and value types at the same places -/
def DeepAhb.SameStructure (a b : DeepAhb) : Prop := a.relabel .erase = b.relabel .erase

/-- both are `None`, or both are texts that are not blank -/
inductive BothWritten : Option PyStr → Option PyStr → Prop where
  | none : BothWritten none none
  | some {e f : PyStr} : NotBlank e → NotBlank f → BothWritten (some e) (some f)

/-- the lines stand at the same place of the message: group, segment, data element and value pool entry are the same, and where one has
an expression or a name, the other one has one, too -/
structure AhbLine.SamePlace (a b : AhbLine) : Prop where
  group : a.segmentGroupKey = b.segmentGroupKey
  segment : a.segmentCode = b.segmentCode
  element : a.dataElement = b.dataElement
  entry : a.valuePoolEntry = b.valuePoolEntry
  expression : BothWritten a.ahbExpression b.ahbExpression
  name : a.name.isSome = b.name.isSome

end Verif
