import Verif.Py.Xml
/-!
# Model: unpacking virtual groups

`MigXmlReader._unpack_virtual_groups`. Its call is commented out (mig_xml_reader.py:63), so it is not part of `MigXmlReader.new`.
The tree here consists of elements only; comments, which lxml counts as children, and the text behind an element, which moves with
it, are not modelled.
-/

namespace Verif

/-- the XPath `class[@meta.virtual="true"]` — mig_xml_reader.py:79, 81 -/
def isVirtualClass (e : Xml) : Bool := e.tag == py!"class" && dictGet py!"meta.virtual" e.attrib == some py!"true"

/-- `parent.insert(index, element)` of lxml: in front of the child with this index, which counts from the end if it is negative; at
the end if there is no such child -/
def lxmlInsert {α : Type} (l : List α) (index : Int) (x : α) : List α :=
  if 0 ≤ index then l.take index.toNat ++ x :: l.drop index.toNat
  else if (-index).toNat ≤ l.length then l.take (l.length - (-index).toNat) ++ x :: l.drop (l.length - (-index).toNat)
  else l ++ [x]

/-- a child of the parent, with its identity: its original index, or `none` if it has been moved here from a group -/
abbrev Child := Option Nat × Xml

/-- `for foo_field in foo_group: parent.insert(foo_group_index - 1, foo_field)` — mig_xml_reader.py:83-84. The iterator of lxml has
fetched the next child before the current one is moved, so all children of the group are moved. -/
def moveFields (groupIndex : Nat) (l : List Child) (fields : List Xml) : List Child :=
  fields.foldl (fun l field => lxmlInsert l ((groupIndex : Int) - 1) (none, field)) l

/-- the body of the inner loop, for the group with the given identity — mig_xml_reader.py:82-85 -/
def unpackGroup (l : List Child) (group : Nat × Xml) : List Child :=
  let groupIndex := l.findIdx fun c => c.1 == some group.1
  (moveFields groupIndex l group.2.children).filter fun c => !(c.1 == some group.1)

/-- the children with their identities -/
def identified (children : List Xml) : List Child := children.zipIdx.map fun c => (some c.2, c.1)

/-- the virtual groups among the children; the XPath is evaluated before anything is moved — mig_xml_reader.py:81 -/
def virtualGroups (children : List Xml) : List (Nat × Xml) := (children.zipIdx.filter fun c => isVirtualClass c.1).map fun c => (c.2, c.1)

/-- the inner loop: the children of one parent, afterwards — mig_xml_reader.py:81-85 -/
def unpackChildren (children : List Xml) : List Xml :=
  ((virtualGroups children).foldl unpackGroup (identified children)).map Prod.snd

theorem lxmlInsert_perm {α : Type} (l : List α) (i : Int) (x : α) : (lxmlInsert l i x).Perm (x :: l) := by
  unfold lxmlInsert
  split
  · exact List.perm_middle.trans (by rw [List.take_append_drop])
  · split
    · exact List.perm_middle.trans (by rw [List.take_append_drop])
    · exact List.perm_append_singleton _ _

theorem moveFields_perm (i : Nat) (fields : List Xml) : ∀ l : List Child, (moveFields i l fields).Perm (fields.map (none, ·) ++ l) := by
  unfold moveFields
  induction fields with
  | nil => intro l; exact .refl _
  | cons f fields ih =>
    intro l
    rw [List.foldl_cons]
    refine (ih _).trans ?_
    refine (List.Perm.append_left _ (lxmlInsert_perm _ _ _)).trans ?_
    rw [List.map_cons, List.cons_append]
    exact List.perm_middle

theorem unpackGroup_perm (l : List Child) (g : Nat × Xml) :
    (unpackGroup l g).Perm (g.2.children.map (none, ·) ++ l.filter fun c => !(c.1 == some g.1)) := by
  unfold unpackGroup
  refine ((moveFields_perm _ _ _).filter _).trans ?_
  rw [List.filter_append]
  refine List.Perm.append_right _ ?_
  rw [List.filter_eq_self.2]
  simp

theorem unpackGroups_perm (gs : List (Nat × Xml)) : ∀ l : List Child, (gs.foldl unpackGroup l).Perm
    (gs.flatMap (fun g => g.2.children.map (none, ·)) ++ l.filter fun c => gs.all fun g => !(c.1 == some g.1)) := by
  induction gs with
  | nil =>
    intro l
    simp [List.filter_eq_self.2]
  | cons g gs ih =>
    intro l
    rw [List.foldl_cons]
    refine (ih _).trans ?_
    refine (List.Perm.append_left _ ((unpackGroup_perm l g).filter _)).trans ?_
    rw [List.filter_append, List.flatMap_cons, List.filter_filter]
    have h1 : (List.map (fun x : Xml => ((none, x) : Child)) g.2.children).filter (fun c => gs.all fun g => !(c.1 == some g.1)) =
        List.map (fun x : Xml => ((none, x) : Child)) g.2.children := by
      rw [List.filter_eq_self]
      simp
    rw [h1]
    have h2 : (l.filter fun c => (gs.all fun g => !(c.1 == some g.1)) && !(c.1 == some g.1)) =
        l.filter fun c => (g :: gs).all fun g => !(c.1 == some g.1) := by
      apply List.filter_congr
      intro c _
      rw [List.all_cons, Bool.and_comm]
    rw [h2, ← List.append_assoc]
    exact List.Perm.append_right _ List.perm_append_comm

theorem zipIdx_filter (cs : List Xml) : ∀ k, ((cs.zipIdx k).filter fun c => !isVirtualClass c.1).map Prod.fst = cs.filter fun c => !isVirtualClass c := by
  induction cs with
  | nil => intro k; rfl
  | cons c cs ih =>
    intro k
    rw [List.zipIdx_cons, List.filter_cons, List.filter_cons]
    cases isVirtualClass c <;> simp [ih]

theorem unpackChildren_perm' (cs : List Xml) : (unpackChildren cs).Perm
    ((virtualGroups cs).flatMap (fun g => g.2.children) ++ cs.filter fun c => !isVirtualClass c) := by
  unfold unpackChildren
  refine ((unpackGroups_perm _ _).map _).trans ?_
  rw [List.map_append, List.map_flatMap]
  simp only [List.map_map]
  have h1 : ∀ l : List Xml, List.map (Prod.snd ∘ fun x : Xml => ((none, x) : Child)) l = l := fun l => by simp [Function.comp_def]
  simp only [h1]
  refine List.Perm.append_left _ ?_
  have h2 : (identified cs).filter (fun c => (virtualGroups cs).all fun g => !(c.1 == some g.1)) =
      (cs.zipIdx.filter fun c => !isVirtualClass c.1).map fun c => ((some c.2, c.1) : Child) := by
    unfold identified
    rw [List.filter_map]
    congr 1
    apply List.filter_congr
    intro c hc
    unfold virtualGroups
    simp only [Function.comp_apply, List.all_map, List.all_filter]
    rw [Bool.eq_iff_iff, List.all_eq_true]
    constructor
    · intro h
      have := h c hc
      simpa using this
    · intro h d hd
      cases hv : isVirtualClass d.1 with
      | false => simp
      | true =>
        simp only [Bool.not_true, Bool.false_or, Bool.not_eq_true', beq_eq_false_iff_ne, ne_eq, Option.some.injEq]
        intro he
        have h1 := List.mem_zipIdx_iff_getElem?.1 hc
        have h2 := List.mem_zipIdx_iff_getElem?.1 hd
        rw [he, h2] at h1
        injection h1 with h1
        rw [h1] at hv
        simp [hv] at h
  rw [h2, List.map_map]
  have h3 : (Prod.snd ∘ fun c : Xml × Nat => ((some c.2, c.1) : Child)) = Prod.fst := rfl
  rw [h3, zipIdx_filter]

theorem mem_unpackChildren {cs : List Xml} {c : Xml} (h : c ∈ unpackChildren cs) : c ∈ cs ∨ ∃ v ∈ cs, c ∈ v.children := by
  rw [(unpackChildren_perm' cs).mem_iff, List.mem_append, List.mem_flatMap] at h
  rcases h with ⟨g, hg, hc⟩ | h
  · unfold virtualGroups at hg
    simp only [List.mem_map, List.mem_filter] at hg
    obtain ⟨d, ⟨hd, _⟩, rfl⟩ := hg
    exact .inr ⟨d.1, List.fst_mem_of_mem_zipIdx hd, hc⟩
  · exact .inl (List.mem_filter.1 h).1

/-- `_unpack_virtual_groups` below an element — mig_xml_reader.py:72-85. The parents of virtual groups are visited in the order of the
document, so an element is visited before its children. Which elements are visited is found out in advance; but only a visit of an
element itself changes its children, apart from a virtual group, which is empty and no longer in the tree after the visit of its parent. -/
def unpackVirtual : Xml → Xml
  | .elem tag attrib text children => .elem tag attrib text ((unpackChildren children).attach.map fun c => unpackVirtual c.1)
termination_by e => sizeOf e
decreasing_by
  rcases mem_unpackChildren c.2 with h | ⟨v, hv, h⟩
  · have := List.sizeOf_lt_of_mem h
    simp only [Xml.elem.sizeOf_spec]
    omega
  · have h1 := List.sizeOf_lt_of_mem hv
    have h2 := List.sizeOf_lt_of_mem h
    have h3 : sizeOf v.children < sizeOf v := by
      cases v
      simp only [Xml.children, Xml.elem.sizeOf_spec]
      omega
    simp only [Xml.elem.sizeOf_spec]
    omega

end Verif
