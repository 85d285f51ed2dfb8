import Verif.Proofs.JsonOrder
/-! dumps are Python values: the keys of the dictionaries are distinct -/

namespace Verif
open Json

theorem isPython_dumpStr (s : Option PyStr) : (dumpStr s).IsPython := by cases s <;> trivial

theorem isPythonItems_map {α : Type} (f : α → Json) (l : List α) (h : ∀ a ∈ l, (f a).IsPython) : IsPythonItems (l.map f) :=
  (isPythonItems_iff _).2 fun j hj => by
    obtain ⟨a, ha, rfl⟩ := List.mem_map.1 hj
    exact h a ha

theorem isPython_obj {d : List (PyStr × Json)} (h1 : (d.map Prod.fst).Nodup) (h2 : ∀ m ∈ d, m.2.IsPython) : (Json.obj d).IsPython := by
  rw [IsPython]
  exact ⟨h1, (isPythonMembers_iff _).2 h2⟩

theorem isPython_arr {l : List Json} (h : IsPythonItems l) : (Json.arr l).IsPython := by rw [IsPython]; exact h

theorem AhbLine.isPython_dump (l : AhbLine) : l.dump.IsPython := by
  unfold AhbLine.dump
  refine isPython_obj (by simp only [List.map_cons, List.map_nil]; decide) ?_
  simp only [List.forall_mem_cons, List.not_mem_nil, false_implies, implies_true, and_true, isPython_dumpStr]
  refine ⟨?_, ?_⟩ <;> split <;> trivial

theorem AhbMetaInformation.isPython_dump (m : AhbMetaInformation) : m.dump.IsPython := by
  unfold AhbMetaInformation.dump
  refine isPython_obj (by simp only [List.map_cons, List.map_nil]; decide) ?_
  simp only [List.forall_mem_cons, List.not_mem_nil, false_implies, implies_true, and_true, isPython_dumpStr]
  trivial

theorem FlatAhb.isPython_dump (f : FlatAhb) : f.dump.IsPython := by
  unfold FlatAhb.dump
  refine isPython_obj (by simp only [List.map_cons, List.map_nil]; decide) ?_
  simp only [List.forall_mem_cons, List.not_mem_nil, false_implies, implies_true, and_true]
  exact ⟨f.ahbMeta.isPython_dump, isPython_arr (isPythonItems_map _ _ fun l _ => l.isPython_dump)⟩

theorem ValuePoolEntry.isPython_dump (e : ValuePoolEntry) : e.dump.IsPython := by
  unfold ValuePoolEntry.dump
  refine isPython_obj (by simp only [List.map_cons, List.map_nil]; decide) ?_
  simp only [List.forall_mem_cons, List.not_mem_nil, false_implies, implies_true, and_true]
  exact ⟨trivial, trivial, trivial⟩

theorem DataElement.isPython_dump (de : DataElement) : de.dump.IsPython := by
  obtain ⟨disc, id, inp, vt, kind⟩ := de
  unfold DataElement.dump DataElement.dumpBase dumpInput
  refine isPython_obj ?_ ?_
  · cases inp <;> cases kind <;> simp only [List.map_append, List.map_cons, List.map_nil] <;> decide
  · have hvt : (dumpDataType vt).IsPython := by cases vt <;> trivial
    cases inp <;> cases kind <;>
      simp only [List.nil_append, List.cons_append, List.append_nil, List.forall_mem_cons, List.not_mem_nil, false_implies,
        implies_true, and_true, isPython_dumpStr, hvt, true_and]
    · exact ⟨trivial, trivial⟩
    · exact ⟨trivial, isPython_arr (isPythonItems_map _ _ fun e _ => e.isPython_dump)⟩
    · exact ⟨trivial, trivial, trivial⟩
    · exact ⟨trivial, trivial, isPython_arr (isPythonItems_map _ _ fun e _ => e.isPython_dump)⟩

theorem Segment.isPython_dump (s : Segment) : s.dump.IsPython := by
  unfold Segment.dump
  refine isPython_obj (by simp only [List.map_cons, List.map_nil]; decide) ?_
  simp only [List.forall_mem_cons, List.not_mem_nil, false_implies, implies_true, and_true, isPython_dumpStr, true_and]
  exact ⟨trivial, isPython_arr (isPythonItems_map _ _ fun e _ => e.isPython_dump)⟩

mutual
theorem SegmentGroup.isPython_dump : ∀ g : SegmentGroup, g.dump.IsPython
  | .mk d e i s gs => by
    rw [SegmentGroup.dump]
    refine isPython_obj (by simp only [List.map_cons, List.map_nil]; decide) ?_
    simp only [List.forall_mem_cons, List.not_mem_nil, false_implies, implies_true, and_true, isPython_dumpStr, true_and]
    refine ⟨trivial, ?_, SegmentGroup.isPython_dumpOpt gs⟩
    cases s with
    | none => trivial
    | some l => exact isPython_arr (isPythonItems_map _ _ fun e _ => e.isPython_dump)
theorem SegmentGroup.isPython_dumpOpt : ∀ o : Option (List SegmentGroup), (SegmentGroup.dumpOpt o).IsPython
  | none => by rw [SegmentGroup.dumpOpt]; trivial
  | some l => by rw [SegmentGroup.dumpOpt]; exact isPython_arr (SegmentGroup.isPython_dumpList l)
theorem SegmentGroup.isPython_dumpList : ∀ l : List SegmentGroup, IsPythonItems (SegmentGroup.dumpList l)
  | [] => by rw [SegmentGroup.dumpList]; trivial
  | g :: l => by
    rw [SegmentGroup.dumpList, IsPythonItems]
    exact ⟨SegmentGroup.isPython_dump g, SegmentGroup.isPython_dumpList l⟩
end

theorem DeepAhb.isPython_dump (a : DeepAhb) : a.dump.IsPython := by
  unfold DeepAhb.dump
  refine isPython_obj (by simp only [List.map_cons, List.map_nil]; decide) ?_
  simp only [List.forall_mem_cons, List.not_mem_nil, false_implies, implies_true, and_true]
  exact ⟨a.ahbMeta.isPython_dump, isPython_arr (isPythonItems_map _ _ fun g _ => g.isPython_dump)⟩

mutual
theorem Sgh.isPython_dump : ∀ s : Sgh, s.dump.IsPython
  | .mk k o sub => by
    rw [Sgh.dump]
    refine isPython_obj (by simp only [List.map_cons, List.map_nil]; decide) ?_
    simp only [List.forall_mem_cons, List.not_mem_nil, false_implies, implies_true, and_true, isPython_dumpStr, true_and]
    exact ⟨trivial, Sgh.isPython_dumpOpt sub⟩
theorem Sgh.isPython_dumpOpt : ∀ o : Option (List Sgh), (Sgh.dumpOpt o).IsPython
  | none => by rw [Sgh.dumpOpt]; trivial
  | some l => by rw [Sgh.dumpOpt]; exact isPython_arr (Sgh.isPython_dumpList l)
theorem Sgh.isPython_dumpList : ∀ l : List Sgh, IsPythonItems (Sgh.dumpList l)
  | [] => by rw [Sgh.dumpList]; trivial
  | s :: l => by
    rw [Sgh.dumpList, IsPythonItems]
    exact ⟨Sgh.isPython_dump s, Sgh.isPython_dumpList l⟩
end

/-- reading what was written: the same value up to the order of the members -/
theorem loads_dumps (st : JsonStyle) (j : Json) (h : j.IsPython) :
    ∃ j', jsonLoads (jsonDumps st j) = .ok j' ∧ Same j j' ∧ (st.sortKeys = false → j' = j) ∧ (st.sortKeys = true → j' = j.sorted) := by
  unfold jsonDumps
  cases hs : st.sortKeys with
  | false => 
    refine ⟨j, jsonLoads_render st j h, ?_, fun _ => rfl, fun h => by cases h⟩
    exact same_refl j
  | true => exact ⟨j.sorted, jsonLoads_render st _ (isPython_sorted j h), same_sorted j, fun h => (by cases h), fun _ => rfl⟩

/-- reading an object from its dump as a text is the same as loading the dump -/
theorem load_text {α : Type} {load : Json → PyRes α} (hl : OrderFree load) (st : JsonStyle) (j : Json) (h : j.IsPython) :
    (jsonLoads (jsonDumps st j)).bind load = load j := by
  obtain ⟨j', h1, h2, _⟩ := loads_dumps st j h
  rw [h1]
  exact (hl j h j' h2).symm

end Verif
