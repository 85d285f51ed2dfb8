import Verif.Proofs.Sgh
/-!
# Properties C01, C02, C03: segment group hierarchies
-/

namespace Verif
open Sgh

/-- a hierarchy in the style of UTILMD used in the examples: root(SG2(SG3), SG4(SG5, SG8(SG10))) -/
def exSgh : Sgh :=
  .mk none py!"UNH" (some [
    .mk (some py!"SG2") py!"NAD" (some [.mk (some py!"SG3") py!"CTA" none]),
    .mk (some py!"SG4") py!"IDE" (some [
      .mk (some py!"SG5") py!"LOC" none,
      .mk (some py!"SG8") py!"SEQ" (some [.mk (some py!"SG10") py!"CCI" (some [])])])])

/-- **C01** `flattened()` lists each group of the hierarchy exactly once, in document order: there is a strictly
ascending (hence duplicate free) list of addresses, containing exactly the addresses that exist in the hierarchy, such
that `flattened()` is the list of (key, opening segment) found at these addresses. In the lexicographic order on
addresses parents come before their children and siblings are ordered by their index. -/
theorem C01_flattened_preorder (s : Sgh) :
    ∃ as : List (List Nat),
      as.Pairwise (· < ·) ∧ (∀ a, a ∈ as ↔ (s.at? a).isSome) ∧
      s.flattened.map some = as.map fun a => (s.at? a).map fun g => (g.segmentGroup, g.openingSegment) :=
  ⟨addrs s, addrs_sorted s, mem_addrs s, flattened_addrs s⟩

-- the address order used in C01: parents before children, siblings by index
example : ([] : List Nat) < [0] ∧ [0] < [0, 0] ∧ [0, 7] < [1] ∧ [1] < [1, 0] := by decide
example : (exSgh.at? [1, 1, 0]).map segmentGroup = some (some py!"SG10") := by decide
example : exSgh.flattened = [(none, py!"UNH"), (some py!"SG2", py!"NAD"), (some py!"SG3", py!"CTA"),
    (some py!"SG4", py!"IDE"), (some py!"SG5", py!"LOC"), (some py!"SG8", py!"SEQ"), (some py!"SG10", py!"CCI")] := by
  decide

/-- **C02** `is_hierarchically_below(k)` is `True` iff a strict descendant (non-empty address) has the key `k`. -/
theorem C02_is_hierarchically_below (s : Sgh) (k : Option PyStr) :
    s.isHierarchicallyBelow k = true ↔ ∃ a g, a ≠ [] ∧ s.at? a = some g ∧ g.segmentGroup = k := by
  rw [isBelow_addr]
  constructor
  · rintro ⟨a, h1, h2⟩
    obtain ⟨g, hg, hk⟩ := keyAt?_some.1 h2
    exact ⟨a, g, h1, hg, hk⟩
  · rintro ⟨a, g, h1, hg, hk⟩
    exact ⟨a, h1, keyAt?_some.2 ⟨g, hg, hk⟩⟩

example : exSgh.isHierarchicallyBelow (some py!"SG10") = true ∧ exSgh.isHierarchicallyBelow none = false := by decide

/-- **C03 (exactness)** `sg_is_hierarchically_below(x, y)` is `True` iff `x ≠ y` and a group with key `y` has a
descendant with key `x`. -/
theorem C03_sg_below_iff (s : Sgh) (x y : Option PyStr) :
    s.sgIsHierarchicallyBelow x y = true ↔
      x ≠ y ∧ ∃ a b g h, b ≠ [] ∧ s.at? a = some g ∧ g.segmentGroup = y ∧
        s.at? (a ++ b) = some h ∧ h.segmentGroup = x := by
  rw [sgBelow_addr]
  constructor
  · rintro ⟨hxy, a, b, hb, h1, h2⟩
    obtain ⟨g, hg, hk⟩ := keyAt?_some.1 h1
    obtain ⟨g', hg', hk'⟩ := keyAt?_some.1 h2
    exact ⟨hxy, a, b, g, g', hb, hg, hk, hg', hk'⟩
  · rintro ⟨hxy, a, b, g, h, hb, hg, hk, hh, hk'⟩
    exact ⟨hxy, a, b, hb, keyAt?_some.2 ⟨g, hg, hk⟩, keyAt?_some.2 ⟨h, hh, hk'⟩⟩

/-- **C03 (irreflexive)** -/
theorem C03_sg_below_irrefl (s : Sgh) (x : Option PyStr) : s.sgIsHierarchicallyBelow x x = false := by
  rw [Bool.eq_false_iff]
  intro h
  exact ((sgBelow_addr s x x).1 h).1 rfl

/-- **C03 (transitive)** for distinct keys -/
theorem C03_sg_below_trans (s : Sgh) (hd : s.KeysDistinct) (x y z : Option PyStr)
    (hxy : s.sgIsHierarchicallyBelow x y = true) (hyz : s.sgIsHierarchicallyBelow y z = true) :
    s.sgIsHierarchicallyBelow x z = true := by
  obtain ⟨_, a, b, hb, h1, h2⟩ := (sgBelow_addr s x y).1 hxy
  obtain ⟨_, a', b', hb', h1', h2'⟩ := (sgBelow_addr s y z).1 hyz
  obtain rfl := hd.keyAt_inj h1 h2'
  refine (sgBelow_addr s x z).2 ⟨?_, a', b' ++ b, by simp [hb], h1', by simpa using h2⟩
  rintro rfl
  have := hd.keyAt_inj h1' h2
  have := congrArg List.length this
  have h3 : b.length ≠ 0 := by simpa using hb
  simp only [List.length_append] at this
  omega

/-- **C03 (asymmetric)** for distinct keys -/
theorem C03_sg_below_asymm (s : Sgh) (hd : s.KeysDistinct) (x y : Option PyStr)
    (hxy : s.sgIsHierarchicallyBelow x y = true) : s.sgIsHierarchicallyBelow y x = false := by
  rw [Bool.eq_false_iff]
  intro hyx
  have h := C03_sg_below_trans s hd x y x hxy hyx
  rw [C03_sg_below_irrefl] at h
  exact Bool.noConfusion h

/-- distinct keys as a condition on `flattened()` -/
theorem keysDistinct_of_nodup (s : Sgh) (h : (s.flattened.map Prod.fst).Nodup) : s.KeysDistinct := by
  have hm : (s.flattened.map Prod.fst).map some = (addrs s).map s.keyAt? := by
    have := congrArg (List.map (Option.map Prod.fst)) (flattened_addrs s)
    have hf : (fun a => (s.at? a).map segmentGroup) = s.keyAt? := rfl
    simpa [Function.comp_def, hf] using this
  have hn : ((addrs s).map s.keyAt?).Nodup := by
    rw [← hm]
    exact List.Pairwise.map _ (fun a b hab hc => hab (Option.some.inj hc)) h
  intro a b g g' ha hb hk
  have ha' := (mem_addrs s a).2 (by simp [ha])
  have hb' := (mem_addrs s b).2 (by simp [hb])
  have hab : s.keyAt? a = s.keyAt? b := by simp [keyAt?, ha, hb, hk]
  exact inj_of_nodup_map s.keyAt? hn ha' hb' hab

theorem exSgh_keysDistinct : exSgh.KeysDistinct := keysDistinct_of_nodup exSgh (by decide)
example : exSgh.sgIsHierarchicallyBelow (some py!"SG10") (some py!"SG8") = true ∧
    exSgh.sgIsHierarchicallyBelow (some py!"SG8") (some py!"SG4") = true ∧
    exSgh.sgIsHierarchicallyBelow (some py!"SG5") (some py!"SG8") = false := by decide

/-- Distinct keys are needed for asymmetry: with repeated keys two groups may be below each other. -/
example : let s : Sgh := .mk none py!"UNH" (some [
      .mk (some py!"SG1") py!"AAA" (some [.mk (some py!"SG2") py!"BBB" none]),
      .mk (some py!"SG2") py!"BBB" (some [.mk (some py!"SG1") py!"AAA" none])])
    s.sgIsHierarchicallyBelow (some py!"SG1") (some py!"SG2") = true ∧
    s.sgIsHierarchicallyBelow (some py!"SG2") (some py!"SG1") = true := by decide

end Verif
