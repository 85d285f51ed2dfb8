import Mathlib.Data.List.Forall2
import Verif.Model.CsvText
/-!
# Specification vocabulary: lines with the same content
-/

namespace Verif

/-- the lines differ at most in their GUID, their condition texts and their segment id -/
def AhbLine.SameContent (a b : AhbLine) : Prop :=
  a.segmentGroupKey = b.segmentGroupKey ∧ a.segmentCode = b.segmentCode ∧ a.dataElement = b.dataElement ∧
    a.valuePoolEntry = b.valuePoolEntry ∧ a.name = b.name ∧ a.ahbExpression = b.ahbExpression ∧
    a.sectionName = b.sectionName ∧ a.index = b.index

/-- the lines differ at most in their GUID -/
def AhbLine.SameButGuid (a b : AhbLine) : Prop := { a with guid := none } = { b with guid := none }

/-- the lines differ at most in their GUID, their condition texts, their segment id and their index -/
def AhbLine.SameButNumber (a b : AhbLine) : Prop := AhbLine.SameContent { a with index := none } { b with index := none }

/-- both calls raise the same exception or both succeed with related results -/
def SameOutcome {α β : Type} (R : α → β → Prop) : PyRes α → PyRes β → Prop
  | .ok a, .ok b => R a b
  | .error e, .error e' => e = e'
  | _, _ => False

/-- the readers differ at most in the GUIDs of their lines -/
def CsvReader.SameButGuids (r r' : CsvReader) : Prop :=
  r.pruefidentifikator = r'.pruefidentifikator ∧ r.bedingungen = r'.bedingungen ∧ List.Forall₂ AhbLine.SameButGuid r.rows r'.rows

/-- the flat AHBs differ at most in the GUIDs of their lines -/
def FlatAhb.SameButGuids (f f' : FlatAhb) : Prop :=
  f.ahbMeta = f'.ahbMeta ∧ List.Forall₂ AhbLine.SameButGuid f.lines f'.lines

/-- the flat AHBs have the same meta information, and their lines differ at most in GUIDs, condition texts and segment ids -/
def FlatAhb.SameContent (f f' : FlatAhb) : Prop :=
  f.ahbMeta = f'.ahbMeta ∧ List.Forall₂ AhbLine.SameContent f.lines f'.lines

/-- the flat AHBs have the same meta information, and their lines differ at most in GUIDs, condition texts, segment ids and indices -/
def FlatAhb.SameButNumbers (f f' : FlatAhb) : Prop :=
  f.ahbMeta = f'.ahbMeta ∧ List.Forall₂ AhbLine.SameButNumber f.lines f'.lines

/-- the flat AHB with renumbered lines -/
def FlatAhb.renumber (k : Option Int → Option Int) (f : FlatAhb) : FlatAhb :=
  { f with lines := f.lines.map fun l => { l with index := k l.index } }

/-- the segment with another index -/
def Segment.renumber (k : Option Int → Option Int) (s : Segment) : Segment := { s with ahbLineIndex := k s.ahbLineIndex }

namespace SegmentGroup
mutual
/-- the group with the indices changed at every depth -/
def renumber (k : Option Int → Option Int) : SegmentGroup → SegmentGroup
  | mk d e i s gs => mk d e (k i) (s.map (List.map (Segment.renumber k))) (renumberOpt k gs)
/-- the same for the optional sub groups -/
def renumberOpt (k : Option Int → Option Int) : Option (List SegmentGroup) → Option (List SegmentGroup)
  | none => none
  | some l => some (renumberList k l)
/-- the same, one by one -/
def renumberList (k : Option Int → Option Int) : List SegmentGroup → List SegmentGroup
  | [] => []
  | g :: l => renumber k g :: renumberList k l
end
end SegmentGroup

/-- the deep AHB with the indices changed at every depth -/
def DeepAhb.renumber (k : Option Int → Option Int) (a : DeepAhb) : DeepAhb := { a with lines := a.lines.map (SegmentGroup.renumber k) }

end Verif
