import Verif.Spec.DeepOps
import Verif.Model.Schema
/-!
# Specification vocabulary for the schemas

An object is *constructed* if the constructor, called with the object's own field values, returns it (so every validator
accepts). Every object that exists in the program is constructed, because attrs runs the validators in the constructor and
on assignment.
-/

namespace Verif

/-- the constructor accepts the line; a UUID is a 128 bit number -/
def AhbLine.Constructed (l : AhbLine) : Prop := AhbLine.new l = .ok l ∧ ∀ g, l.guid = some g → g < 2 ^ 128

/-- the constructors accept the flat AHB and its parts -/
def FlatAhb.Constructed (f : FlatAhb) : Prop :=
  FlatAhb.new f.ahbMeta f.lines = .ok f ∧ AhbMetaInformation.new f.ahbMeta = .ok f.ahbMeta ∧
    ∀ l ∈ f.lines, l.Constructed

/-- the constructor accepts the entry -/
def ValuePoolEntry.Constructed (e : ValuePoolEntry) : Prop :=
  ValuePoolEntry.new (some e.qualifier) (some e.meaning) (some e.ahbExpression) = .ok e

/-- the constructors accept the data element and its entries -/
def DataElement.Constructed (de : DataElement) : Prop :=
  match de.kind with
  | .freeText x =>
    DataElement.newFreeText de.discriminator (some de.dataElementId) de.enteredInput (some x) de.valueType = .ok de
  | .valuePool p =>
    DataElement.newValuePool de.discriminator (some de.dataElementId) de.enteredInput p de.valueType = .ok de ∧
      ∀ e ∈ p, e.Constructed

/-- the constructor accepts the segment -/
def Segment.Constructed (s : Segment) : Prop :=
  Segment.new s.discriminator (some s.ahbExpression) s.ahbLineIndex s.dataElements s.sectionName s.segmentId = .ok s

/-- the constructor accepts the group -/
def SegmentGroup.Constructed (g : SegmentGroup) : Prop :=
  SegmentGroup.new g.discriminator (some g.ahbExpression) g.ahbLineIndex g.segments g.segmentGroups = .ok g

/-- the constructors accept the deep AHB and everything in it -/
structure DeepAhb.Constructed (a : DeepAhb) : Prop where
  info : AhbMetaInformation.new a.ahbMeta = .ok a.ahbMeta
  groups : ∀ g, GroupOccurs a.lines g → g.Constructed
  segments : ∀ s, SegmentOccurs a.lines s → s.Constructed
  dataElements : ∀ de, DataElementOccurs a.lines de → de.Constructed

/-- no `None` in a field whose schema does not accept `null`: the discriminators of groups and segments, the section names
of the segments, the value types of the data elements -/
structure DeepAhb.Complete (a : DeepAhb) : Prop where
  groups : ∀ g, GroupOccurs a.lines g → g.discriminator ≠ none
  segments : ∀ s, SegmentOccurs a.lines s → s.discriminator ≠ none ∧ s.sectionName ≠ none
  dataElements : ∀ de, DataElementOccurs a.lines de → de.valueType ≠ none

end Verif
