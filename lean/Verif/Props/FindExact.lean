import Verif.Proofs.FindExact
import Verif.Props.Deep
import Verif.Props.Matching
/-!
# C30, C31: order and multiplicity of the results of the searches
-/

namespace Verif

/-- **C30 (order)** if groups at different places are different, `find_segment_groups` returns, for each outermost group, the groups below
it that satisfy the predicate, in document order, and then the outermost group itself, if it does. -/
theorem C30_order (a : DeepAhb) (hd : DistinctGroups a.lines) (p : SegmentGroup → Bool) :
    a.findSegmentGroups p = a.lines.flatMap fun line => (groupsInOrder line.children).filter p ++ [line].filter p :=
  findSegmentGroups_exact p a hd

/-- **C30 (once)** if groups at different places are different, each group is returned once. -/
theorem C30_once (a : DeepAhb) (hd : DistinctGroups a.lines) (p : SegmentGroup → Bool) : (a.findSegmentGroups p).Nodup :=
  (findSegmentGroups_perm p a hd).nodup_iff.2 ((groupsInOrder_nodup hd).sublist List.filter_sublist)

/-- **C31 (multiplicity)** if groups at different places are different, a segment that satisfies the segment predicate and occurs once is
returned once for each group around it that satisfies the group predicate, and once more if it is in an outermost group. -/
theorem C31_multiplicity (a : DeepAhb) (hd : DistinctGroups a.lines) (gp : SegmentGroup → Bool) (sp : Segment → Bool) (address : List Nat) (s : Segment)
    (h : OnlyIn a.lines address s) (hs : sp s = true) :
    (a.findSegments gp sp).count s = matchesAbove a.lines gp address + if address.length = 1 then 1 else 0 :=
  count_findSegments hd gp sp h hs

/-- **C30, C31 (hypothesis)** in results of `to_deep_ahb`, groups at different places are different. -/
theorem C30_distinct_groups (reader : MigLookup) (posStr : AhbLocation → PyStr) (flat flat' : FlatAhb) (sgh : Sgh) (deep : DeepAhb)
    (h : toDeepAhb reader posStr flat sgh = .ok (flat', deep)) : DistinctGroups deep.lines :=
  fun a b _ ha hb => C16_discriminators_unique reader posStr flat flat' sgh deep h a b _ _ ha hb rfl

/-- groups are different if their values at all addresses are -/
theorem distinctGroups_of_nodup {l : List SegmentGroup} (h : (groupsInOrder l).Nodup) : DistinctGroups l := by
  intro a b g ha hb
  have ma := (mem_groupAddresses l a).2 (by rw [ha]; rfl)
  have mb := (mem_groupAddresses l b).2 (by rw [hb]; rfl)
  unfold groupsInOrder at h
  revert ma mb h
  generalize groupAddresses l = as
  intro h ma mb
  induction as with
  | nil => cases ma
  | cons x as ih =>
    rw [List.filterMap_cons] at h
    rcases List.mem_cons.1 ma with rfl | ma' <;> rcases List.mem_cons.1 mb with rfl | mb'
    · rfl
    · rw [ha] at h
      exact absurd (List.mem_filterMap.2 ⟨b, mb', hb⟩) (List.nodup_cons.1 h).1
    · rw [hb] at h
      exact absurd (List.mem_filterMap.2 ⟨a, ma', ha⟩) (List.nodup_cons.1 h).1
    · refine ih ?_ ma' mb'
      split at h
      · exact h
      · exact (List.nodup_cons.1 h).2

/-- the example of C31: the segment in the innermost of three groups is returned three times if all groups match, twice if only the outer
two match; the one in the outermost group is returned once even if no group matches -/
example : DistinctGroups exDeep.lines ∧ OnlyIn exDeep.lines [0, 0, 0] exSeg2 ∧ OnlyIn exDeep.lines [0] exSeg1 ∧
    (exDeep.findSegments (fun _ => true) (fun _ => true)).count exSeg2 = 3 ∧
    (exDeep.findSegments (fun g => g.discriminator ≠ some py!"SG3") (fun _ => true)).count exSeg2 = 2 ∧
    (exDeep.findSegments (fun _ => false) (fun _ => true)).count exSeg1 = 1 := by
  have hadr : groupAddresses exDeep.lines = [[0], [0, 0], [0, 0, 0]] := by decide +kernel
  refine ⟨distinctGroups_of_nodup (by decide +kernel), ⟨exDeepInner, rfl, by decide +kernel, ?_⟩, ⟨exDeepRoot, rfl, by decide +kernel, ?_⟩,
    by decide +kernel, by decide +kernel, by decide +kernel⟩
  all_goals
    intro b h hb hs
    have hm := (mem_groupAddresses _ b).2 (by rw [hb]; rfl)
    rw [hadr] at hm
    simp only [List.mem_cons, List.not_mem_nil, or_false] at hm
    rcases hm with rfl | rfl | rfl <;> cases hb <;> first | rfl | (revert hs; decide +kernel)

end Verif
