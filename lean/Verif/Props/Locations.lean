import Verif.Proofs.Lcp
/-!
# Properties C04, C05, C06: sub locations, common ancestors, distances
-/

namespace Verif

/-- **C04** a location is a sub location of another one iff the other one's layers are a prefix of its layers. -/
theorem C04_is_sub_location_of (a b : AhbLocation) : a.isSubLocationOf b = true ↔ b.layers <+: a.layers := by
  unfold AhbLocation.isSubLocationOf
  split
  · next h =>
    simp only [Bool.false_eq_true, false_iff]
    intro hp; have := hp.length_le; omega
  · next h => exact zipAllEq_iff (by omega)

/-- **C04** `b.is_parent_of(a)` says the same. -/
theorem C04_is_parent_of (a b : AhbLocation) : b.isParentOf a = true ↔ b.layers <+: a.layers :=
  C04_is_sub_location_of a b

/-- **C04** hence the relation is reflexive, transitive, and antisymmetric on the layers. -/
theorem C04_partial_order :
    (∀ a : AhbLocation, a.isSubLocationOf a = true) ∧
    (∀ a b c : AhbLocation, a.isSubLocationOf b = true → b.isSubLocationOf c = true → a.isSubLocationOf c = true) ∧
    (∀ a b : AhbLocation, a.isSubLocationOf b = true → b.isSubLocationOf a = true → a.layers = b.layers) := by
  refine ⟨fun a => ?_, fun a b c h1 h2 => ?_, fun a b h1 h2 => ?_⟩
  · rw [C04_is_sub_location_of]; exact List.prefix_refl _
  · rw [C04_is_sub_location_of] at *; exact h2.trans h1
  · rw [C04_is_sub_location_of] at *; exact h2.eq_of_length_le h1.length_le

/-- example layers -/
def exLayer (k : Option PyStr) (o : PyStr) (q : Option PyStr) : AhbLocationLayer := ⟨k, o, q⟩

def exRoot : AhbLocationLayer := ⟨none, py!"UNH", none⟩
def exSG4 : AhbLocationLayer := ⟨some py!"SG4", py!"IDE", some py!"24"⟩
def exSG8 : AhbLocationLayer := ⟨some py!"SG8", py!"SEQ", some py!"Z02"⟩
def exSG8' : AhbLocationLayer := ⟨some py!"SG8", py!"SEQ", some py!"Z03"⟩
def exSG10 : AhbLocationLayer := ⟨some py!"SG10", py!"CCI", some py!"ZE4"⟩

example : (AhbLocation.mk [exRoot, exSG4, exSG8] none none none false).isSubLocationOf
    (AhbLocation.mk [exRoot, exSG4] none none none false) = true := by decide
example : (AhbLocation.mk [exRoot, exSG4, exSG8] none none none false).isSubLocationOf
    (AhbLocation.mk [exRoot, exSG8] none none none false) = false := by decide

/-- the location is just a place in the hierarchy (no segment code, data element or qualifier) -/
def AhbLocation.IsBare (l : AhbLocation) : Prop := l.segmentCode = none ∧ l.dataElementId = none ∧ l.qualifier = none

/-- **C05 (success)** if two (real) locations share their first layer, the common ancestor is the bare location whose
layers are the longest common prefix: a common prefix that every common prefix is a prefix of. -/
theorem C05_common_ancestor (x y : AhbLocation) (hx : x.pseudo = false) (hy : y.pseudo = false)
    (l : AhbLocationLayer) (hlx : x.layers.head? = some l) (hly : y.layers.head? = some l) :
    ∃ ca, findCommonAncestor x y = .ok ca ∧ ca.IsBare ∧ ca.pseudo = false ∧
      ca.layers <+: x.layers ∧ ca.layers <+: y.layers ∧
      ∀ q, q <+: x.layers → q <+: y.layers → q <+: ca.layers := by
  have hne : ¬ (lcp x.layers y.layers).length < 1 := by
    cases hx' : x.layers with
    | nil => simp [hx'] at hlx
    | cons a as =>
      cases hy' : y.layers with
      | nil => simp [hy'] at hly
      | cons b bs =>
        simp only [hx', hy', List.head?_cons, Option.some.injEq] at hlx hly
        simp [lcp, hlx, hly]
  refine ⟨{ layers := lcp x.layers y.layers }, ?_, ⟨rfl, rfl, rfl⟩, rfl, lcp_prefix_left _ _,
    lcp_prefix_right _ _, fun q h1 h2 => lcp_greatest h1 h2⟩
  simp [findCommonAncestor, hx, hy, commonLayers_false, AhbLocation.new, hne, optMatches]

/-- **C05 (failure)** `find_common_ancestor` on real locations raises iff the first layers differ (or are missing), and
then it raises `ValueError`. -/
theorem C05_common_ancestor_error (x y : AhbLocation) (hx : x.pseudo = false) (hy : y.pseudo = false) (e : Exc) :
    findCommonAncestor x y = .error e ↔
      e = .valueError ∧ ¬ ∃ l, x.layers.head? = some l ∧ y.layers.head? = some l := by
  constructor
  · intro h
    refine ⟨?_, ?_⟩
    · simp only [findCommonAncestor, AhbLocation.new, optMatches] at h
      split at h
      · cases h; rfl
      · simp at h
    · rintro ⟨l, hl1, hl2⟩
      obtain ⟨ca, hca, _⟩ := C05_common_ancestor x y hx hy l hl1 hl2
      rw [hca] at h; cases h
  · rintro ⟨rfl, hn⟩
    have : (lcp x.layers y.layers).length < 1 := by
      cases hx' : x.layers with
      | nil => simp [lcp]
      | cons a as =>
        cases hy' : y.layers with
        | nil => simp [lcp]
        | cons b bs =>
          simp only [hx', hy', List.head?_cons, Option.some.injEq, exists_eq_left'] at hn
          simp [lcp, Ne.symm hn]
    simp [findCommonAncestor, hx, hy, commonLayers_false, AhbLocation.new, this]

/-- **C05 (order of arguments)** -/
theorem C05_common_ancestor_comm (x y : AhbLocation) (hx : x.pseudo = false) (hy : y.pseudo = false) :
    findCommonAncestor x y = findCommonAncestor y x := by
  simp [findCommonAncestor, hx, hy, commonLayers_false, lcp_comm x.layers y.layers]

example : findCommonAncestor { layers := [exRoot, exSG4, exSG8, exSG10], qualifier := some py!"E01" }
    { layers := [exRoot, exSG4, exSG8'] } = .ok { layers := [exRoot, exSG4] } := by decide
example : findCommonAncestor { layers := [exRoot, exSG4] } { layers := [exSG4] } = .error .valueError := by decide

/-- the distance in terms of the longest common prefix -/
theorem distance_ok {x y : AhbLocation} (hx : x.pseudo = false) (hy : y.pseudo = false) {d : AhbLocationDistance}
    (h : calculateDistance x y = .ok d) :
    d.layersUp = x.layers.length - (lcp x.layers y.layers).length ∧
    d.layersDown = y.layers.length - (lcp x.layers y.layers).length := by
  have h1 := (lcp_prefix_left x.layers y.layers).length_le
  have h2 := (lcp_prefix_right x.layers y.layers).length_le
  simp only [calculateDistance, findCommonAncestor, hx, hy, commonLayers_false, AhbLocation.new, Bool.or_self,
    AhbLocationDistance.new] at h
  split at h
  · cases h
  · simp only [optMatches, Bool.not_true, Bool.false_eq_true, if_false, bind, Except.bind] at h
    split at h
    · next hlt => omega
    · cases h; constructor <;> (try simp only) <;> omega

/-- **C06 (definedness)** the distance of two real locations exists iff they share their first layer; otherwise
`ValueError` is raised. -/
theorem C06_distance_defined (x y : AhbLocation) (hx : x.pseudo = false) (hy : y.pseudo = false) :
    ((∃ d, calculateDistance x y = .ok d) ↔ ∃ l, x.layers.head? = some l ∧ y.layers.head? = some l) ∧
    ∀ e, calculateDistance x y = .error e → e = .valueError := by
  have h1 := (lcp_prefix_left x.layers y.layers).length_le
  have h2 := (lcp_prefix_right x.layers y.layers).length_le
  constructor
  · constructor
    · rintro ⟨d, hd⟩
      apply Classical.byContradiction
      intro hn
      have := (C05_common_ancestor_error x y hx hy .valueError).2 ⟨rfl, hn⟩
      simp [calculateDistance, this, bind, Except.bind] at hd
    · rintro ⟨l, hl1, hl2⟩
      obtain ⟨ca, hca, _, _, hp1, hp2, _⟩ := C05_common_ancestor x y hx hy l hl1 hl2
      have := hp1.length_le
      have := hp2.length_le
      simp only [calculateDistance, hca, bind, Except.bind, AhbLocationDistance.new]
      rw [if_neg (by omega)]
      exact ⟨_, rfl⟩
  · intro e h
    simp only [calculateDistance, findCommonAncestor, hx, hy, commonLayers_false, AhbLocation.new, Bool.or_self,
      AhbLocationDistance.new] at h
    split at h
    · cases h; rfl
    · simp only [optMatches, Bool.not_true, Bool.false_eq_true, if_false, bind, Except.bind] at h
      split at h
      · cases h; rfl
      · cases h

/-- **C06 (path)** removing `layers_up` layers from the start and adding the last `layers_down` layers of the target
gives the target, and no smaller numbers of layers do. -/
theorem C06_distance_path (x y : AhbLocation) (hx : x.pseudo = false) (hy : y.pseudo = false)
    (d : AhbLocationDistance) (h : calculateDistance x y = .ok d) :
    d.layersUp ≤ x.layers.length ∧ d.layersDown ≤ y.layers.length ∧
    x.layers.take (x.layers.length - d.layersUp) ++ y.layers.drop (y.layers.length - d.layersDown) = y.layers ∧
    ∀ u v, u ≤ x.layers.length → v ≤ y.layers.length →
      x.layers.take (x.layers.length - u) ++ y.layers.drop (y.layers.length - v) = y.layers →
      d.layersUp ≤ u ∧ d.layersDown ≤ v := by
  obtain ⟨h1, h2⟩ := distance_ok hx hy h
  have hp1 := (lcp_prefix_left x.layers y.layers).length_le
  have hp2 := (lcp_prefix_right x.layers y.layers).length_le
  refine ⟨by omega, by omega, ?_, ?_⟩
  · rw [h1, h2, show x.layers.length - (x.layers.length - (lcp x.layers y.layers).length)
        = (lcp x.layers y.layers).length by omega,
      show y.layers.length - (y.layers.length - (lcp x.layers y.layers).length)
        = (lcp x.layers y.layers).length by omega,
      ← (List.prefix_iff_eq_take.1 (lcp_prefix_left x.layers y.layers))]
    conv => lhs; lhs; rw [(List.prefix_iff_eq_take.1 (lcp_prefix_right x.layers y.layers))]
    exact List.take_append_drop _ _
  · intro u v hu hv he
    have hp : x.layers.take (x.layers.length - u) <+: y.layers := ⟨_, he⟩
    rw [take_prefix_iff (by omega)] at hp
    have hl := congrArg List.length he
    simp only [List.length_append, List.length_take, List.length_drop] at hl
    omega

/-- **C06 (symmetry)** swapping the locations swaps up and down. -/
theorem C06_distance_swap (x y : AhbLocation) (hx : x.pseudo = false) (hy : y.pseudo = false)
    (d : AhbLocationDistance) (h : calculateDistance x y = .ok d) :
    calculateDistance y x = .ok { layersUp := d.layersDown, layersDown := d.layersUp } := by
  have hd : ∃ d', calculateDistance y x = .ok d' := by
    rw [(C06_distance_defined y x hy hx).1]
    obtain ⟨l, h1, h2⟩ := (C06_distance_defined x y hx hy).1.1 ⟨d, h⟩
    exact ⟨l, h2, h1⟩
  obtain ⟨d', hd'⟩ := hd
  obtain ⟨h1, h2⟩ := distance_ok hx hy h
  obtain ⟨h1', h2'⟩ := distance_ok hy hx hd'
  rw [lcp_comm] at h1' h2'
  rw [hd']
  cases d'; simp_all

/-- **C06 (zero)** no layers up iff the target is a sub location of the start; no layers down iff the start is a sub
location of the target. -/
theorem C06_distance_zero (x y : AhbLocation) (hx : x.pseudo = false) (hy : y.pseudo = false)
    (d : AhbLocationDistance) (h : calculateDistance x y = .ok d) :
    (d.layersUp = 0 ↔ y.isSubLocationOf x = true) ∧ (d.layersDown = 0 ↔ x.isSubLocationOf y = true) := by
  obtain ⟨h1, h2⟩ := distance_ok hx hy h
  have hp1 := (lcp_prefix_left x.layers y.layers).length_le
  have hp2 := (lcp_prefix_right x.layers y.layers).length_le
  rw [C04_is_sub_location_of, C04_is_sub_location_of, ← lcp_eq_left_iff, ← lcp_eq_left_iff,
    lcp_comm y.layers x.layers, h1, h2]
  constructor <;> constructor <;> intro <;> omega

/-- **C06 (triangle inequality)** -/
theorem C06_distance_triangle (x y z : AhbLocation) (hx : x.pseudo = false) (hy : y.pseudo = false)
    (hz : z.pseudo = false) (dxy dyz dxz : AhbLocationDistance) (hxy : calculateDistance x y = .ok dxy)
    (hyz : calculateDistance y z = .ok dyz) (hxz : calculateDistance x z = .ok dxz) :
    dxz.layersUp + dxz.layersDown ≤ (dxy.layersUp + dxy.layersDown) + (dyz.layersUp + dyz.layersDown) := by
  obtain ⟨h1, h2⟩ := distance_ok hx hy hxy
  obtain ⟨h3, h4⟩ := distance_ok hy hz hyz
  obtain ⟨h5, h6⟩ := distance_ok hx hz hxz
  have := lcp_ultra x.layers y.layers z.layers
  have := (lcp_prefix_left x.layers y.layers).length_le
  have := (lcp_prefix_right x.layers y.layers).length_le
  have := (lcp_prefix_left y.layers z.layers).length_le
  have := (lcp_prefix_right y.layers z.layers).length_le
  have := (lcp_prefix_left x.layers z.layers).length_le
  have := (lcp_prefix_right x.layers z.layers).length_le
  omega

example : calculateDistance { layers := [exRoot, exSG4, exSG8, exSG10] } { layers := [exRoot, exSG4, exSG8'] }
    = .ok { layersUp := 2, layersDown := 1 } := by decide

end Verif
