import Verif.Model.DeepAssign
import Verif.Spec.Schema
import Verif.Spec.Constructors
/-!
# Specification: assignments to attributes of a deep AHB (C117)
-/

namespace Verif

/-- what the constructors demand of the objects, each by itself -/
structure DeepObj.Sound (o : DeepObj) : Prop where
  info : NoneOr NotBlank o.ahbMeta.description ∧ NoneOr NotBlank o.ahbMeta.direction
  entries : ∀ r, AcceptableQualifier (o.entries r).qualifier ∧ NotBlank (o.entries r).ahbExpression
  dataElements : ∀ r, NoneOr NotBlank (o.dataElements r).discriminator ∧ IsFourDigits (o.dataElements r).dataElementId ∧
    ∀ e, (o.dataElements r).kind = .freeText e → NotBlank e
  segments : ∀ r, NotBlank (o.segments r).ahbExpression ∧ NoneOr IsFiveDigits (o.segments r).segmentId
  groups : ∀ r, NotBlank (o.groups r).ahbExpression

/-- an attribute of one of the objects -/
inductive DeepCell where
  | pruefidentifikator | mausVersion | description | direction | lines
  | entryQualifier (r : Nat) | entryMeaning (r : Nat) | entryExpression (r : Nat)
  | elementDiscriminator (r : Nat) | elementId (r : Nat) | elementInput (r : Nat) | elementType (r : Nat) | elementExpression (r : Nat)
  | elementPool (r : Nat)
  | segmentDiscriminator (r : Nat) | segmentExpression (r : Nat) | segmentIndex (r : Nat) | segmentElements (r : Nat)
  | segmentSection (r : Nat) | segmentId (r : Nat)
  | groupDiscriminator (r : Nat) | groupExpression (r : Nat) | groupIndex (r : Nat) | groupSegments (r : Nat) | groupGroups (r : Nat)
  deriving DecidableEq

/-- a value of an attribute -/
inductive DeepValue where
  | text (v : Option PyStr)
  | int (v : Option Int)
  | type (v : Option DataElementDataType)
  | objects (v : Option (List Nat))
  /-- the object has no such attribute -/
  | missing

/-- the value of an attribute -/
def DeepObj.read (o : DeepObj) : DeepCell → DeepValue
  | .pruefidentifikator => .text (some o.ahbMeta.pruefidentifikator)
  | .mausVersion => .text o.ahbMeta.mausVersion
  | .description => .text o.ahbMeta.description
  | .direction => .text o.ahbMeta.direction
  | .lines => .objects (some o.lines)
  | .entryQualifier r => .text (some (o.entries r).qualifier)
  | .entryMeaning r => .text (some (o.entries r).meaning)
  | .entryExpression r => .text (some (o.entries r).ahbExpression)
  | .elementDiscriminator r => .text (o.dataElements r).discriminator
  | .elementId r => .text (some (o.dataElements r).dataElementId)
  | .elementInput r => .text (o.dataElements r).enteredInput
  | .elementType r => .type (o.dataElements r).valueType
  | .elementExpression r => match (o.dataElements r).kind with
    | .freeText e => .text (some e)
    | .valuePool _ => .missing
  | .elementPool r => match (o.dataElements r).kind with
    | .freeText _ => .missing
    | .valuePool p => .objects (some p)
  | .segmentDiscriminator r => .text (o.segments r).discriminator
  | .segmentExpression r => .text (some (o.segments r).ahbExpression)
  | .segmentIndex r => .int (o.segments r).ahbLineIndex
  | .segmentElements r => .objects (some (o.segments r).dataElements)
  | .segmentSection r => .text (o.segments r).sectionName
  | .segmentId r => .text (o.segments r).segmentId
  | .groupDiscriminator r => .text (o.groups r).discriminator
  | .groupExpression r => .text (some (o.groups r).ahbExpression)
  | .groupIndex r => .int (o.groups r).ahbLineIndex
  | .groupSegments r => .objects (o.groups r).segments
  | .groupGroups r => .objects (o.groups r).segmentGroups

/-- the attribute that is assigned, and the value -/
def DeepAssign.target : DeepAssign → DeepCell × DeepValue
  | info (.pruefidentifikator v) => (.pruefidentifikator, .text (some v))
  | info (.mausVersion v) => (.mausVersion, .text v)
  | info (.description v) => (.description, .text v)
  | info (.direction v) => (.direction, .text v)
  | lines v => (.lines, .objects (some v))
  | entry r (.qualifier v) => (.entryQualifier r, .text v)
  | entry r (.meaning v) => (.entryMeaning r, .text v)
  | entry r (.ahbExpression v) => (.entryExpression r, .text v)
  | dataElement r (.discriminator v) => (.elementDiscriminator r, .text v)
  | dataElement r (.dataElementId v) => (.elementId r, .text v)
  | dataElement r (.enteredInput v) => (.elementInput r, .text v)
  | dataElement r (.valueType v) => (.elementType r, .type v)
  | dataElement r (.ahbExpression v) => (.elementExpression r, .text v)
  | dataElement r (.valuePool v) => (.elementPool r, .objects (some v))
  | segment r (.discriminator v) => (.segmentDiscriminator r, .text v)
  | segment r (.ahbExpression v) => (.segmentExpression r, .text v)
  | segment r (.ahbLineIndex v) => (.segmentIndex r, .int v)
  | segment r (.dataElements v) => (.segmentElements r, .objects (some v))
  | segment r (.sectionName v) => (.segmentSection r, .text v)
  | segment r (.segmentId v) => (.segmentId r, .text v)
  | group r (.discriminator v) => (.groupDiscriminator r, .text v)
  | group r (.ahbExpression v) => (.groupExpression r, .text v)
  | group r (.ahbLineIndex v) => (.groupIndex r, .int v)
  | group r (.segments v) => (.groupSegments r, .objects v)
  | group r (.segmentGroups v) => (.groupGroups r, .objects v)

/-- `None` for an attribute that has to be a text (for a qualifier or the expression of an entry, this is a blank text) -/
def DeepAssign.GivesNone : DeepAssign → Prop
  | entry _ (.meaning v) | dataElement _ (.dataElementId v) | dataElement _ (.ahbExpression v) | segment _ (.ahbExpression v)
  | group _ (.ahbExpression v) => v = none
  | _ => False

/-- the value is as documented -/
def DeepAssign.Documented : DeepAssign → Prop
  | info (.description v) | info (.direction v) | dataElement _ (.discriminator v) => NoneOr NotBlank v
  | entry _ (.qualifier v) => SomeOf AcceptableQualifier v
  | entry _ (.meaning v) => v ≠ none
  | entry _ (.ahbExpression v) | dataElement _ (.ahbExpression v) | segment _ (.ahbExpression v) | group _ (.ahbExpression v) =>
    SomeOf NotBlank v
  | dataElement _ (.dataElementId v) => SomeOf IsFourDigits v
  | segment _ (.segmentId v) => NoneOr IsFiveDigits v
  | _ => True

/-- the group object that is reached from a list of groups: positions in the list, in the list of groups of that group, and so on -/
def DeepObj.follow (o : DeepObj) (l : List Nat) : List Nat → Option Nat
  | [] => none
  | [i] => l[i]?
  | i :: j :: a => (l[i]?).bind fun r => (o.groups r).segmentGroups.bind fun l' => o.follow l' (j :: a)

/-- the segment shows the attributes of the segment object, its data elements those of the data element objects, their entries the entries -/
structure DeepObj.ShowsSegment (o : DeepObj) (r : Nat) (s : Segment) : Prop where
  discriminator : s.discriminator = (o.segments r).discriminator
  expression : s.ahbExpression = (o.segments r).ahbExpression
  index : s.ahbLineIndex = (o.segments r).ahbLineIndex
  sectionName : s.sectionName = (o.segments r).sectionName
  segmentId : s.segmentId = (o.segments r).segmentId
  count : s.dataElements.length = (o.segments r).dataElements.length
  dataElements : ∀ (i : Nat) (d : Nat) (de : DataElement), (o.segments r).dataElements[i]? = some d → s.dataElements[i]? = some de →
    de.discriminator = (o.dataElements d).discriminator ∧ de.dataElementId = (o.dataElements d).dataElementId ∧
    de.enteredInput = (o.dataElements d).enteredInput ∧ de.valueType = (o.dataElements d).valueType ∧
    (∀ e : PyStr, (o.dataElements d).kind = .freeText e → de.kind = .freeText e) ∧
    (∀ p : List Nat, (o.dataElements d).kind = .valuePool p → ∃ es : List ValuePoolEntry, de.kind = .valuePool es ∧ es.length = p.length ∧
      ∀ j x : Nat, p[j]? = some x → es[j]? = some (o.entries x))

/-- the group shows the attributes of the group object; its segments show the segment objects -/
structure DeepObj.ShowsGroup (o : DeepObj) (r : Nat) (g : SegmentGroup) : Prop where
  discriminator : g.discriminator = (o.groups r).discriminator
  expression : g.ahbExpression = (o.groups r).ahbExpression
  index : g.ahbLineIndex = (o.groups r).ahbLineIndex
  noSegments : g.segments = none ↔ (o.groups r).segments = none
  noGroups : g.segmentGroups = none ↔ (o.groups r).segmentGroups = none
  segments : ∀ (l : List Nat) (ss : List Segment), (o.groups r).segments = some l → g.segments = some ss → ss.length = l.length ∧
    ∀ (i s : Nat) (x : Segment), l[i]? = some s → ss[i]? = some x → o.ShowsSegment s x

end Verif
