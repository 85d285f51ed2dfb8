import Verif.Spec.Deep
/-! helper lemmas about trees of segment groups -/

namespace Verif
namespace SegmentGroup

mutual
theorem induct_aux {P : SegmentGroup → Prop} (h : ∀ s : SegmentGroup, (∀ c ∈ s.children, P c) → P s) : ∀ s, P s
  | mk d e i s sub => h _ (by simpa [children, segmentGroups] using inductO_aux h sub)
theorem inductO_aux {P : SegmentGroup → Prop} (h : ∀ s : SegmentGroup, (∀ c ∈ s.children, P c) → P s) :
    ∀ (o : Option (List SegmentGroup)), ∀ c ∈ o.getD [], P c
  | none => by simp
  | some l => by simpa using inductL_aux h l
theorem inductL_aux {P : SegmentGroup → Prop} (h : ∀ s : SegmentGroup, (∀ c ∈ s.children, P c) → P s) :
    ∀ (l : List SegmentGroup), ∀ c ∈ l, P c
  | [] => by simp
  | s :: l => by
    have h1 := induct_aux h s
    have h2 := inductL_aux h l
    simp only [List.mem_cons]
    rintro c (rfl | hc)
    · exact h1
    · exact h2 c hc
end

/-- induction over the tree -/
theorem induct {P : SegmentGroup → Prop} (h : ∀ s : SegmentGroup, (∀ c ∈ s.children, P c) → P s) (s : SegmentGroup) :
    P s := induct_aux h s

theorem docItemsList_eq (l : List SegmentGroup) : docItemsList l = documentOrder l := by
  induction l with
  | nil => simp [docItemsList, documentOrder]
  | cons s l ih => simp [docItemsList, documentOrder, ih]

theorem docItems_eq (g : SegmentGroup) :
    docItems g = g.header :: (g.ownSegments.flatMap Segment.docItems ++ documentOrder g.children) := by
  cases g with
  | mk d e i s sub => cases sub <;>
      simp [docItems, docItemsOpt, header, discriminator, ahbExpression, ahbLineIndex, ownSegments, children,
        segments, segmentGroups, docItemsList_eq, documentOrder]

end SegmentGroup

@[simp] theorem documentOrder_nil : documentOrder [] = [] := rfl
@[simp] theorem documentOrder_append (a b : List SegmentGroup) :
    documentOrder (a ++ b) = documentOrder a ++ documentOrder b := by simp [documentOrder]
theorem documentOrder_singleton (g : SegmentGroup) : documentOrder [g] = g.docItems := by simp [documentOrder]

@[simp] theorem SegmentGroup.children_setSegmentGroups (g : SegmentGroup) (x) :
    (g.setSegmentGroups x).children = x.getD [] := by cases g; rfl
@[simp] theorem SegmentGroup.segmentGroups_setSegmentGroups (g : SegmentGroup) (x) :
    (g.setSegmentGroups x).segmentGroups = x := by cases g; rfl
@[simp] theorem SegmentGroup.header_setSegmentGroups (g : SegmentGroup) (x) :
    (g.setSegmentGroups x).header = g.header := by cases g; rfl
@[simp] theorem SegmentGroup.ownSegments_setSegmentGroups (g : SegmentGroup) (x) :
    (g.setSegmentGroups x).ownSegments = g.ownSegments := by cases g; rfl
@[simp] theorem SegmentGroup.segments_setSegmentGroups (g : SegmentGroup) (x) :
    (g.setSegmentGroups x).segments = g.segments := by cases g; rfl
@[simp] theorem SegmentGroup.children_setSegments (g : SegmentGroup) (x) :
    (g.setSegments x).children = g.children := by cases g; rfl
@[simp] theorem SegmentGroup.segmentGroups_setSegments (g : SegmentGroup) (x) :
    (g.setSegments x).segmentGroups = g.segmentGroups := by cases g; rfl
@[simp] theorem SegmentGroup.header_setSegments (g : SegmentGroup) (x) :
    (g.setSegments x).header = g.header := by cases g; rfl
@[simp] theorem SegmentGroup.ownSegments_setSegments (g : SegmentGroup) (x) :
    (g.setSegments x).ownSegments = x.getD [] := by cases g; rfl
@[simp] theorem SegmentGroup.segments_setSegments (g : SegmentGroup) (x) :
    (g.setSegments x).segments = x := by cases g; rfl

end Verif
