import Verif.Spec.DeepOps
import Verif.Spec.TemplatePath
import Verif.Spec.Surrogates
/-!
# Specification: the texts of flat and deep AHBs (C124)
-/

namespace Verif

/-- the text is one of the attributes of a line -/
def AhbLine.HasText (l : AhbLine) (t : PyStr) : Prop :=
  some t ∈ [l.segmentGroupKey, l.segmentCode, l.dataElement, l.segmentId, l.valuePoolEntry, l.name, l.ahbExpression, l.conditions,
    l.sectionName]

/-- the texts of a flat AHB (without the version, which `to_deep_ahb` replaces) -/
def FlatText (f : FlatAhb) (t : PyStr) : Prop :=
  t = f.ahbMeta.pruefidentifikator ∨ f.ahbMeta.description = some t ∨ f.ahbMeta.direction = some t ∨ ∃ l ∈ f.lines, l.HasText t

/-- the texts of a deep AHB: of its meta information, its groups, segments and data elements at every depth -/
inductive MausText (a : DeepAhb) : PyStr → Prop
  | pruefidentifikator : MausText a a.ahbMeta.pruefidentifikator
  | version {t : PyStr} (h : a.ahbMeta.mausVersion = some t) : MausText a t
  | description {t : PyStr} (h : a.ahbMeta.description = some t) : MausText a t
  | direction {t : PyStr} (h : a.ahbMeta.direction = some t) : MausText a t
  | groupDiscriminator {g : SegmentGroup} {t : PyStr} (hg : GroupOccurs a.lines g) (h : g.discriminator = some t) : MausText a t
  | groupExpression {g : SegmentGroup} (hg : GroupOccurs a.lines g) : MausText a g.ahbExpression
  | segmentDiscriminator {s : Segment} {t : PyStr} (hs : SegmentOccurs a.lines s) (h : s.discriminator = some t) : MausText a t
  | segmentExpression {s : Segment} (hs : SegmentOccurs a.lines s) : MausText a s.ahbExpression
  | sectionName {s : Segment} {t : PyStr} (hs : SegmentOccurs a.lines s) (h : s.sectionName = some t) : MausText a t
  | segmentId {s : Segment} {t : PyStr} (hs : SegmentOccurs a.lines s) (h : s.segmentId = some t) : MausText a t
  | elementDiscriminator {de : DataElement} {t : PyStr} (hd : DataElementOccurs a.lines de) (h : de.discriminator = some t) : MausText a t
  | elementId {de : DataElement} (hd : DataElementOccurs a.lines de) : MausText a de.dataElementId
  | enteredInput {de : DataElement} {t : PyStr} (hd : DataElementOccurs a.lines de) (h : de.enteredInput = some t) : MausText a t
  | freeText {de : DataElement} {t : PyStr} (hd : DataElementOccurs a.lines de) (h : de.kind = .freeText t) : MausText a t
  | qualifier {de : DataElement} {es : List ValuePoolEntry} {e : ValuePoolEntry} (hd : DataElementOccurs a.lines de)
      (h : de.kind = .valuePool es) (he : e ∈ es) : MausText a e.qualifier
  | meaning {de : DataElement} {es : List ValuePoolEntry} {e : ValuePoolEntry} (hd : DataElementOccurs a.lines de)
      (h : de.kind = .valuePool es) (he : e ∈ es) : MausText a e.meaning
  | entryExpression {de : DataElement} {es : List ValuePoolEntry} {e : ValuePoolEntry} (hd : DataElementOccurs a.lines de)
      (h : de.kind = .valuePool es) (he : e ∈ es) : MausText a e.ahbExpression

/-- no name in the template holds a lone surrogate (there are none in XML documents) -/
def PlainTemplate (root : Xml) : Prop :=
  ∀ path es, lineage root path = some es → ∀ e ∈ es, ∀ n, NameOf e n → ¬ HoldsLone n

end Verif
