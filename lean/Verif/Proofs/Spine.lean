import Verif.Model.Matching
import Verif.Proofs.Deep
/-! references to lists of groups on the rightmost spine of the tree under construction -/

namespace Verif
open SegmentGroup

/-- `p` refers to the list `r` and every group on the way is the last one of its list -/
inductive OnSpine : List SegmentGroup → GroupPath → List SegmentGroup → Prop
  | nil (l) : OnSpine l [] l
  | cons (init : List SegmentGroup) (g gs p r) (hg : g.segmentGroups = some gs) (h : OnSpine gs p r) :
      OnSpine (init ++ [g]) (init.length :: p) r

theorem modify_concat {α : Type} (init : List α) (g : α) (f : α → α) :
    (init ++ [g]).modify init.length f = init ++ [f g] := by
  induction init with
  | nil => rfl
  | cons x xs ih => simpa using ih

theorem OnSpine.groupsAt {l p r} (h : OnSpine l p r) : groupsAt l p = some r := by
  induction h with
  | nil l => rfl
  | cons init g gs p r hg h ih => simp [Verif.groupsAt, hg, ih]

theorem OnSpine.modify {l p r} (h : OnSpine l p r) (f) : OnSpine (modifyGroups f p l) p (f r) := by
  induction h with
  | nil l => exact .nil _
  | cons init g gs p r hg h ih =>
    simp only [modifyGroups, modify_concat]
    exact .cons _ _ _ _ _ (by rw [segmentGroups_setSegmentGroups, hg]; rfl) ih

theorem OnSpine.docOrder {l p r} (h : OnSpine l p r) : ∃ pre, documentOrder l = pre ++ documentOrder r ∧
    ∀ f, documentOrder (modifyGroups f p l) = pre ++ documentOrder (f r) := by
  induction h with
  | nil l => exact ⟨[], rfl, fun f => rfl⟩
  | cons init g gs p r hg h ih =>
    obtain ⟨pre, h1, h2⟩ := ih
    have hc : g.children = gs := by simp [children, hg]
    refine ⟨documentOrder init ++ (g.header :: (g.ownSegments.flatMap Segment.docItems ++ pre)), ?_, ?_⟩
    · simp [documentOrder_singleton, docItems_eq, hc, h1]
    · intro f
      simp only [modifyGroups, modify_concat]
      simp [documentOrder_singleton, docItems_eq, hg, h2]

theorem OnSpine.trans {l p r q s} (h : OnSpine l p r) (h2 : OnSpine r q s) : OnSpine l (p ++ q) s := by
  induction h with
  | nil l => exact h2
  | cons init g gs p r hg h ih => exact .cons _ _ _ _ _ hg (ih h2)

theorem OnSpine.split {l p q s} (h : OnSpine l (p ++ q) s) : ∃ r, OnSpine l p r ∧ OnSpine r q s := by
  induction p generalizing l with
  | nil => exact ⟨l, .nil _, h⟩
  | cons i p ih =>
    cases h with
    | cons init g gs p r hg h =>
      obtain ⟨r, h1, h2⟩ := ih h
      exact ⟨r, .cons _ _ _ _ _ hg h1, h2⟩

/-- the proper prefixes of an address, shortest first -/
def properPrefixes (q : GroupPath) : List GroupPath := (List.range q.length).map q.take

theorem properPrefixes_concat (q : GroupPath) (x : Nat) : properPrefixes (q ++ [x]) = properPrefixes q ++ [q] := by
  simp only [properPrefixes, List.length_append, List.length_singleton, List.range_succ, List.map_append, List.map_cons,
    List.map_nil, List.take_left]
  congr 1
  apply List.map_congr_left
  intro n hn
  rw [List.take_append_of_le_length (by simpa using Nat.le_of_lt (List.mem_range.1 hn))]

end Verif
