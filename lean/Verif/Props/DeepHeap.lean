import Verif.Proofs.DeepHeap
import Verif.Props.Matching
/-!
# C118: the lists of a deep AHB that `to_deep_ahb` returns are separate objects
-/

namespace Verif

/-- **C118**: `to_deep_ahb`, with real references to lists, raises exactly the exceptions and builds exactly the tree of the model in which a
reference is an address in the tree -/
theorem C118_same (reader : MigLookup) (posStr : AhbLocation → PyStr) (flat : FlatAhb) (sgh : Sgh) :
    SameResult (fun (x : FlatAhb × AhbMetaInformation × Heap) (y : FlatAhb × DeepAhb) =>
        x.1 = y.1 ∧ x.2.1 = y.2.ahbMeta ∧ x.2.2.Shows y.2.lines)
      (toDeepAhbRef reader posStr flat sgh) (toDeepAhb reader posStr flat sgh) := by
  have h := toDeepAhbRef_related reader posStr flat sgh
  cases hx : toDeepAhbRef reader posStr flat sgh with
  | error e =>
    rw [hx] at h
    cases hy : toDeepAhb reader posStr flat sgh with
    | error e' => rw [hy] at h; exact h
    | ok y => rw [hy] at h; exact h.elim
  | ok x =>
    rw [hx] at h
    cases hy : toDeepAhb reader posStr flat sgh with
    | error e' => rw [hy] at h; exact h.elim
    | ok y =>
      rw [hy] at h
      obtain ⟨h1, h2, π, σ, _, h3⟩ := h
      exact ⟨h1, h2, x.2.2.groupCount + 1, h3⟩

/-- **C118**: no list and no object is used at two places of the result -/
theorem C118_nothing_shared {reader : MigLookup} {posStr : AhbLocation → PyStr} {flat flat' : FlatAhb} {sgh : Sgh} {info : AhbMetaInformation}
    {h : Heap} (hr : toDeepAhbRef reader posStr flat sgh = .ok (flat', info, h)) : h.NothingShared := by
  have hrel := toDeepAhbRef_related reader posStr flat sgh
  rw [hr] at hrel
  cases hy : toDeepAhb reader posStr flat sgh with
  | error e' => rw [hy] at hrel; exact hrel.elim
  | ok y =>
    rw [hy] at hrel
    obtain ⟨_, _, π, σ, inv, _⟩ := hrel
    exact inv.nothingShared

/-- **C118**: a change of one list of the result is seen at one place only: whoever empties a list of groups, a list of segments or a list of
data elements, sees the same tree, in which the list at one address is empty; different lists have different addresses -/
theorem C118_change {reader : MigLookup} {posStr : AhbLocation → PyStr} {flat flat' : FlatAhb} {sgh : Sgh} {deep : DeepAhb}
    (hd : toDeepAhb reader posStr flat sgh = .ok (flat', deep)) :
    ∃ (info : AhbMetaInformation) (h : Heap) (π : Nat → GroupPath) (σ : Nat → Nat × Nat),
      toDeepAhbRef reader posStr flat sgh = .ok (flat', info, h) ∧
      (∀ a ≤ h.groupCount, ∀ b ≤ h.groupCount, π a = π b → a = b) ∧
      (∀ r < h.segmentCount, ∀ s < h.segmentCount, σ r = σ s → r = s) ∧
      (∀ b ≤ h.groupCount, ∃ gs : List SegmentGroup, groupsAt deep.lines (π b) = some gs ∧ gs.length = (h.groupLists b).length ∧
        Heap.Shows { h with groupLists := heapSet h.groupLists b [] } (modifyGroups (fun _ => []) (π b) deep.lines)) ∧
      (∀ g < h.groupCount,
        Heap.Shows { h with segmentLists := heapSet h.segmentLists g [] } (modifySegments (fun _ => []) (π (g + 1)) deep.lines)) ∧
      (∀ r < h.segmentCount,
        Heap.Shows { h with dataElementLists := heapSet h.dataElementLists r [] }
          (modifySegments (fun ss => ss.modify (σ r).2 fun s => { s with dataElements := [] }) (π ((σ r).1 + 1)) deep.lines)) := by
  have hrel := toDeepAhbRef_related reader posStr flat sgh
  rw [hd] at hrel
  cases hx : toDeepAhbRef reader posStr flat sgh with
  | error e => rw [hx] at hrel; exact hrel.elim
  | ok x =>
    rw [hx] at hrel
    obtain ⟨f, info, h⟩ := x
    obtain ⟨h1, h2, π, σ, inv, hlines⟩ := hrel
    simp only at h1 h2 inv hlines
    subst h1
    refine ⟨info, h, π, σ, rfl, fun a ha b hb => inv.path_inj a b ha hb, ?_, ?_, ?_, ?_⟩
    · intro r hr s hs e
      have a1 := (inv.segmentCell r hr).2.2
      have a2 := (inv.segmentCell s hs).2.2
      rw [e, a2] at a1
      injection a1 with a1
      exact a1.symm
    · intro b hb
      have hlen := inv.path_length b hb
      have hat := inv.groupsAt_path (h.groupCount + 1) b hb (by omega)
      rw [hlines _ (Nat.le_refl _)] at hat
      refine ⟨_, hat, ?_, h.groupCount + 1, fun n hn => ?_⟩
      · obtain ⟨m, hm⟩ : ∃ m : Nat, h.groupCount + 1 - (π b).length = m + 1 := ⟨h.groupCount - (π b).length, by omega⟩
        rw [hm, readGroups_succ, List.length_map]
      · rw [inv.read_clearGroups hb n (by omega), hlines n hn]
    · intro g hg
      refine ⟨h.groupCount + 1, fun n hn => ?_⟩
      rw [inv.read_clearSegments hg n (by omega), hlines n hn]
    · intro r hr
      refine ⟨h.groupCount + 1, fun n hn => ?_⟩
      rw [inv.read_clearDataElements hr n (by omega), hlines n hn]

/-! ## non-vacuity: several nested groups with segments and data elements, and a run that raises -/

/-- four groups, of which three are in the list of groups of the first, and five segments -/
example : (toDeepAhbRef exReader exPosStr exFlat exSgh).toOption.map (fun x =>
      (x.2.2.groupCount, x.2.2.segmentCount, [0, 1, 2, 3, 4].map x.2.2.groupLists, [0, 1, 2, 3].map x.2.2.segmentLists)) =
    some (4, 5, [[0], [1, 2, 3], [], [], []], [[0], [1], [2], [3, 4]]) := by
  decide +kernel

/-- a value pool entry without name: both models raise -/
example : (toDeepAhbRef exReader exPosStr { exFlat with lines := exLines.modify 5 fun l => { l with name := none } } exSgh).map (fun _ => ()) =
    .error .attributeError := by
  decide +kernel

/-- the notions tell shared lists apart: if the groups 1 and 2 of the example used the same list of segments, two places would change -/
example (h : Heap) (hc : 2 ≤ h.groupCount) (h1 : (h.groupLists 1)[0]? = some 1) (h2 : (h.groupLists 1)[1]? = some 2)
    (hs : (h.groups 1).segments = (h.groups 2).segments) : ¬ h.NothingShared := by
  intro hn
  have := (hn.groups 1 (by omega) 1 (by omega) 0 1 1 2 h1 h2 (.inr (.inr hs))).2
  omega

end Verif
