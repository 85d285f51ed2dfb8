import Verif.Model.FlatEdit
import Verif.Spec.Flat
import Verif.Spec.Constructors
/-!
# Specification: flat AHBs that are edited in place (C114)

`AhbLine.WellFormed`, `CutBeforeGroups`, `controlPieces`: Spec/Flat.lean.
-/

namespace Verif

/-- the attributes of an `AhbLine` -/
inductive LineAttrName where
  | guid | segmentGroupKey | segmentCode | dataElement | segmentId | valuePoolEntry | name | ahbExpression | conditions | sectionName | index
  deriving DecidableEq

/-- a value of an attribute -/
inductive LineAttrValue where
  | uuid (v : Option Nat)
  | text (v : Option PyStr)
  | int (v : Option Int)

/-- the value of an attribute of a line -/
def AhbLine.read (l : AhbLine) : LineAttrName → LineAttrValue
  | .guid => .uuid l.guid
  | .segmentGroupKey => .text l.segmentGroupKey
  | .segmentCode => .text l.segmentCode
  | .dataElement => .text l.dataElement
  | .segmentId => .text l.segmentId
  | .valuePoolEntry => .text l.valuePoolEntry
  | .name => .text l.name
  | .ahbExpression => .text l.ahbExpression
  | .conditions => .text l.conditions
  | .sectionName => .text l.sectionName
  | .index => .int l.index

/-- the attribute that is assigned -/
def LineAttr.target : LineAttr → LineAttrName
  | guid _ => .guid
  | segmentGroupKey _ => .segmentGroupKey
  | segmentCode _ => .segmentCode
  | dataElement _ => .dataElement
  | segmentId _ => .segmentId
  | valuePoolEntry _ => .valuePoolEntry
  | name _ => .name
  | ahbExpression _ => .ahbExpression
  | conditions _ => .conditions
  | sectionName _ => .sectionName
  | index _ => .index

/-- the value that is assigned -/
def LineAttr.value : LineAttr → LineAttrValue
  | guid v => .uuid (v.map (·.val))
  | index v => .int v
  | segmentGroupKey v | segmentCode v | dataElement v | segmentId v | valuePoolEntry v | name v | ahbExpression v | conditions v
  | sectionName v => .text v

/-- the value is allowed: an expression is `None` or not blank, an index is `None` or not negative -/
def LineAttr.Allowed : LineAttr → Prop
  | ahbExpression v => NoneOr NotBlank v
  | index v => NoneOr (0 ≤ ·) v
  | _ => True

/-- what the constructor of `AhbLine` demands: an expression that is not blank, an index that is not negative -/
def AhbLine.Sound (l : AhbLine) : Prop := NoneOr NotBlank l.ahbExpression ∧ NoneOr (0 ≤ ·) l.index

/-- what the constructor of `FlatAnwendungshandbuch` demands of the lines -/
def AcceptableLines (lines : List AhbLine) : Prop :=
  (∀ l ∈ lines, l.WellFormed) ∧ ∃ pieces, CutBeforeGroups lines pieces ∧ controlPieces pieces ≤ 2

/-- the attributes of a line that the handbook has a look at -/
def LineAttr.Watched : LineAttr → Prop
  | segmentGroupKey _ | segmentCode _ | dataElement _ | sectionName _ => True
  | _ => False

/-- a step that cannot get past the validators of the handbook: the list is not changed in place, and no attribute of a line is assigned
which the handbook has a look at -/
def FlatEdit.Guarded : FlatEdit → Prop
  | assign _ a => ¬ a.Watched
  | mutate _ => False
  | _ => True

end Verif
