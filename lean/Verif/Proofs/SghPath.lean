import Verif.Proofs.Sgh
import Verif.Proofs.Lcp
import Verif.Proofs.DetermineLocations
/-! paths in a hierarchy, pseudo locations and the LEAVE branch of `determine_locations` -/

namespace Verif
namespace Sgh

theorem at?_take {s : Sgh} {a : List Nat} (h : (s.at? a).isSome = true) (m : Nat) : (s.at? (a.take m)).isSome = true := by
  have h1 := at?_append s (a.take m) (a.drop m)
  rw [List.take_append_drop] at h1
  cases h2 : s.at? (a.take m) with
  | none => rw [h1, h2] at h; simp at h
  | some _ => rfl

theorem pathKeys_length {s : Sgh} {a : List Nat} (h : (s.at? a).isSome = true) : (s.pathKeys a).length = a.length + 1 := by
  induction a generalizing s with
  | nil => rfl
  | cons i a ih =>
    simp only [at?_cons] at h
    cases hc : s.children[i]? with
    | none => rw [hc] at h; simp at h
    | some c =>
      rw [hc] at h
      simp only [pathKeys, hc, List.length_cons]
      rw [ih h]

theorem pathKeys_take {s : Sgh} {a : List Nat} (h : (s.at? a).isSome = true) (m : Nat) :
    (s.pathKeys a).take (m + 1) = s.pathKeys (a.take m) := by
  induction a generalizing s m with
  | nil => simp [pathKeys]
  | cons i a ih =>
    simp only [at?_cons] at h
    cases hc : s.children[i]? with
    | none => rw [hc] at h; simp at h
    | some c =>
      rw [hc] at h
      cases m with
      | zero => simp [pathKeys]
      | succ m => simp [pathKeys, hc, ih h m]

theorem pathKeys_getElem? {s : Sgh} {a : List Nat} (h : (s.at? a).isSome = true) (m : Nat) (hm : m ≤ a.length) :
    (s.pathKeys a)[m]? = s.keyAt? (a.take m) := by
  induction a generalizing s m with
  | nil =>
    obtain rfl : m = 0 := by simpa using hm
    simp [pathKeys, keyAt?]
  | cons i a ih =>
    simp only [at?_cons] at h
    cases hc : s.children[i]? with
    | none => rw [hc] at h; simp at h
    | some c =>
      rw [hc] at h
      cases m with
      | zero => simp [pathKeys, keyAt?]
      | succ m =>
        simp only [pathKeys, hc, List.getElem?_cons_succ, List.take_succ_cons, keyAt?, at?_cons, Option.bind_some]
        rw [ih h m (by simpa using hm)]; rfl

theorem pathKeys_ne_nil (s : Sgh) (a : List Nat) : s.pathKeys a ≠ [] := by cases a <;> simp [pathKeys]

theorem pathKeys_head (s : Sgh) (a : List Nat) : (s.pathKeys a).head? = some s.segmentGroup := by
  cases a <;> simp [pathKeys]

theorem pathKeys_last {s : Sgh} {a : List Nat} {k} (h : s.keyAt? a = some k) : (s.pathKeys a).getLast? = some k := by
  have hs : (s.at? a).isSome = true := by
    obtain ⟨g, hg, _⟩ := keyAt?_some.1 h; simp [hg]
  rw [List.getLast?_eq_getElem?, pathKeys_length hs, Nat.add_sub_cancel, pathKeys_getElem? hs _ (Nat.le_refl _),
    List.take_length, h]

/-- the path of a group ends with its own key -/
theorem pathKeys_concat {s : Sgh} {b : List Nat} {k} (h : s.keyAt? b = some k) :
    s.pathKeys b = (s.pathKeys b).take b.length ++ [k] := by
  have hs : (s.at? b).isSome = true := by
    obtain ⟨g, hg, _⟩ := keyAt?_some.1 h; simp [hg]
  have h1 := pathKeys_last h
  have h2 : (s.pathKeys b).take b.length = (s.pathKeys b).dropLast := by
    rw [List.dropLast_eq_take, pathKeys_length hs]; simp
  rw [h2]
  obtain ⟨ys, hys⟩ := List.getLast?_eq_some_iff.1 h1
  rw [hys]; simp

theorem isSome_of_keyAt {s : Sgh} {a k} (h : s.keyAt? a = some k) : (s.at? a).isSome = true := by
  obtain ⟨g, hg, _⟩ := keyAt?_some.1 h; simp [hg]

theorem keyAt_of_isSome {s : Sgh} {a} (h : (s.at? a).isSome = true) : ∃ k, s.keyAt? a = some k := by
  obtain ⟨g, hg⟩ := Option.isSome_iff_exists.1 h
  exact ⟨_, keyAt?_some.2 ⟨g, hg, rfl⟩⟩

/-- paths with distinct keys share exactly the path of the common address -/
theorem pathKeys_lcp {s : Sgh} (hd : s.KeysDistinct) {a b : List Nat} (ha : (s.at? a).isSome = true)
    (hb : (s.at? b).isSome = true) : (lcp (s.pathKeys a) (s.pathKeys b)).length = (lcp a b).length + 1 := by
  have hla := pathKeys_length ha
  have hlb := pathKeys_length hb
  have h1 := (lcp_prefix_left a b)
  have h2 := (lcp_prefix_right a b)
  apply Nat.le_antisymm
  · apply Nat.le_of_not_lt
    intro hlt
    generalize hm : (lcp (s.pathKeys a) (s.pathKeys b)).length = m at hlt
    have hp1 := lcp_prefix_left (s.pathKeys a) (s.pathKeys b)
    have hp2 := lcp_prefix_right (s.pathKeys a) (s.pathKeys b)
    have hma : m ≤ a.length + 1 := by have := hp1.length_le; omega
    have hmb : m ≤ b.length + 1 := by have := hp2.length_le; omega
    have e1 := List.prefix_iff_getElem?.1 hp1 (m - 1) (by omega)
    have e2 := List.prefix_iff_getElem?.1 hp2 (m - 1) (by omega)
    rw [pathKeys_getElem? ha _ (by omega)] at e1
    rw [pathKeys_getElem? hb _ (by omega)] at e2
    have e3 := hd.keyAt_inj e1 e2
    have := (lcp_greatest (List.take_prefix (m - 1) a) (e3 ▸ List.take_prefix (m - 1) b)).length_le
    simp only [List.length_take] at this
    omega
  · have e1 : s.pathKeys (lcp a b) <+: s.pathKeys a := by
      rw [List.prefix_iff_eq_take.1 h1, ← pathKeys_take ha]; exact List.take_prefix _ _
    have e2 : s.pathKeys (lcp a b) <+: s.pathKeys b := by
      rw [List.prefix_iff_eq_take.1 h2, ← pathKeys_take hb]; exact List.take_prefix _ _
    have e3 := (lcp_greatest e1 e2).length_le
    have hs : (s.at? (lcp a b)).isSome = true := by
      rw [List.prefix_iff_eq_take.1 h1]; exact at?_take ha _
    rw [pathKeys_length hs] at e3
    exact e3

end Sgh

/-! ## pseudo locations -/

theorem constructPseudoLocation_eq (k : Option PyStr) (s : Sgh) (existing : List AhbLocationLayer) :
    constructPseudoLocation k s existing = (do
      let thisLayer ← AhbLocationLayer.new s.segmentGroup (some s.openingSegment) none
      if k = s.segmentGroup then
        let loc ← AhbLocation.new (existing ++ [thisLayer]) none none none true
        pure (some loc)
      else constructPseudoLocationList k s.children (existing ++ [thisLayer])) := by
  cases s with
  | mk k' o sub =>
    cases sub with
    | none =>
      simp only [constructPseudoLocation, constructPseudoLocationOpt, Sgh.segmentGroup, Sgh.openingSegment,
        Sgh.children, Sgh.subHierarchy, Option.getD, constructPseudoLocationList]
    | some l =>
      simp only [constructPseudoLocation, constructPseudoLocationOpt, Sgh.segmentGroup, Sgh.openingSegment,
        Sgh.children, Sgh.subHierarchy, Option.getD]
      rfl

/-- a found pseudo location belongs to an address; without one there is no such group -/
theorem constructPseudoLocation_spec (k : Option PyStr) (s : Sgh) (existing : List AhbLocationLayer)
    (r : Option AhbLocation) (h : constructPseudoLocation k s existing = .ok r) :
    (∀ loc, r = some loc → loc.pseudo = true ∧ ∃ a, s.keyAt? a = some k ∧
      loc.layers.map (·.segmentGroupKey) = existing.map (·.segmentGroupKey) ++ s.pathKeys a) ∧
    (r = none → ∀ a, s.keyAt? a ≠ some k) := by
  induction s using Sgh.induct generalizing existing r with
  | h s ih =>
    rw [constructPseudoLocation_eq] at h
    simp only [bind, Except.bind] at h
    split at h
    · cases h
    · next layer hlayer =>
      obtain ⟨o, ho, rfl⟩ := layerNew_ok hlayer
      split at h
      · next hk =>
        split at h
        · cases h
        · next loc hloc =>
          obtain ⟨rfl, _⟩ := locationNew_ok hloc
          cases h
          refine ⟨?_, by simp⟩
          rintro loc hl
          cases hl
          exact ⟨rfl, [], by simp [Sgh.keyAt?, hk], by simp [Sgh.pathKeys]⟩
      · next hk =>
        -- the loop over the sub groups
        have loop : ∀ (l : List Sgh) (j : Nat), s.children = s.children.take j ++ l →
            (j = s.children.length - l.length) →
            (∀ (i : Nat) (c : Sgh) (a : List Nat), i < j → s.children[i]? = some c → c.keyAt? a ≠ some k) →
            ∀ r, constructPseudoLocationList k l (existing ++ [⟨s.segmentGroup, o, none⟩]) = .ok r →
            (∀ loc, r = some loc → loc.pseudo = true ∧ ∃ a, s.keyAt? a = some k ∧
              loc.layers.map (·.segmentGroupKey) = existing.map (·.segmentGroupKey) ++ s.pathKeys a) ∧
            (r = none → ∀ (i : Nat) (c : Sgh) (a : List Nat), s.children[i]? = some c → c.keyAt? a ≠ some k) := by
          intro l
          induction l with
          | nil =>
            intro j hj hj' hpre r hr
            simp only [constructPseudoLocationList] at hr
            cases hr
            refine ⟨by simp, fun _ i c a hc => hpre i c a ?_ hc⟩
            have := (List.getElem?_eq_some_iff.1 hc).1
            simp only [List.length_nil] at hj'
            omega
          | cons c l ihl =>
            intro j hj hj' hpre r hr
            have hlen := congrArg List.length hj
            simp only [List.length_append, List.length_take, List.length_cons] at hlen
            have hcj : s.children[j]? = some c := by
              rw [hj, List.getElem?_append_right (by simp; omega)]
              have h0 : j - (List.take j s.children).length = 0 := by simp; omega
              rw [h0]; rfl
            have hmem : c ∈ s.children := List.mem_of_getElem? hcj
            simp only [constructPseudoLocationList, bind, Except.bind] at hr
            split at hr
            · cases hr
            · next r1 hr1 =>
              have hih := ih c hmem _ r1 hr1
              cases r1 with
              | some loc =>
                cases hr
                obtain ⟨h1, a, h2, h3⟩ := hih.1 loc rfl
                refine ⟨?_, by simp⟩
                intro loc' hl
                cases hl
                refine ⟨h1, j :: a, ?_, ?_⟩
                · simp only [Sgh.keyAt?, Sgh.at?_cons, hcj, Option.bind_some]; exact h2
                · rw [h3]; simp [Sgh.pathKeys, hcj]
              | none =>
                refine ihl (j + 1) ?_ ?_ ?_ r hr
                · conv => lhs; rw [hj]
                  rw [List.take_add_one, hcj]; simp
                · simp only [List.length_cons] at hj'; omega
                · intro i c' a hi hc'
                  rcases Nat.lt_or_ge i j with hlt | hge
                  · exact hpre i c' a hlt hc'
                  · obtain rfl : i = j := by omega
                    rw [hcj] at hc'; cases hc'
                    exact hih.2 rfl a
        obtain ⟨l1, l2⟩ := loop s.children 0 (by simp) (by simp) (by simp) r h
        refine ⟨l1, fun hr a => ?_⟩
        cases a with
        | nil => simp only [Sgh.keyAt?, Sgh.at?_nil, Option.map_some, ne_eq, Option.some.injEq]; exact fun h => hk h.symm
        | cons i a =>
          simp only [Sgh.keyAt?, Sgh.at?_cons]
          cases hc : s.children[i]? with
          | none => simp
          | some c => exact l2 hr i c a hc

/-- every group of the hierarchy passes the validators of a location layer -/
def Sgh.LayersValid (s : Sgh) : Prop :=
  ∀ a g, s.at? a = some g → optMatches sgKeyRe g.segmentGroup = true ∧
    (segmentCode3Re.fullMatch g.openingSegment).isSome = true

theorem Sgh.LayersValid.child {s : Sgh} (h : s.LayersValid) {c : Sgh} (hc : c ∈ s.children) : c.LayersValid := by
  obtain ⟨i, hi, rfl⟩ := List.mem_iff_getElem.1 hc
  intro a g hg
  refine h (i :: a) g ?_
  simp only [Sgh.at?_cons, List.getElem?_eq_getElem hi, Option.bind_some]
  exact hg

theorem layerNew_of_valid {k o q} (h1 : optMatches sgKeyRe k = true) (h2 : (segmentCode3Re.fullMatch o).isSome = true)
    (h3 : optMatches openingQualifierRe q = true) : AhbLocationLayer.new k (some o) q = .ok ⟨k, o, q⟩ := by
  unfold AhbLocationLayer.new
  cases h : segmentCode3Re.fullMatch o with
  | none => rw [h] at h2; simp at h2
  | some _ => simp [h1, h3, h]

theorem locationNew_of_valid {layers sc de q p} (h0 : layers ≠ []) (h1 : optMatches segmentCode3Re sc = true)
    (h2 : optMatches dataElement4Re de = true) : AhbLocation.new layers sc de q p = .ok ⟨layers, sc, de, q, p⟩ := by
  unfold AhbLocation.new
  rw [if_neg (by cases layers <;> simp_all)]
  simp [h1, h2]

theorem constructPseudoLocation_ok (k : Option PyStr) (s : Sgh) (hv : s.LayersValid)
    (existing : List AhbLocationLayer) : ∃ r, constructPseudoLocation k s existing = .ok r := by
  induction s using Sgh.induct generalizing existing with
  | h s ih =>
    rw [constructPseudoLocation_eq]
    obtain ⟨v1, v2⟩ := hv [] s rfl
    rw [layerNew_of_valid v1 v2 rfl]
    simp only [bind, Except.bind]
    split
    · rw [locationNew_of_valid (by simp) rfl rfl]; exact ⟨_, rfl⟩
    · have loop : ∀ (l : List Sgh) (e : List AhbLocationLayer), (∀ c ∈ l, c ∈ s.children) →
          ∃ r, constructPseudoLocationList k l e = .ok r := by
        intro l e
        induction l with
        | nil => intro _; exact ⟨none, rfl⟩
        | cons c l ihl =>
          intro hm
          obtain ⟨r, hr⟩ := ih c (hm c (by simp)) (hv.child (hm c (by simp))) e
          simp only [constructPseudoLocationList, hr, bind, Except.bind]
          cases r with
          | some loc => exact ⟨_, rfl⟩
          | none => exact ihl fun c hc => hm c (by simp [hc])
      exact loop _ _ fun c hc => hc

/-- the common ancestor of two groups of the hierarchy has the path of the common address -/
theorem findCommonAncestorFromSgh_spec {s : Sgh} (hd : s.KeysDistinct) {a b : List Nat} {ka kb}
    (ha : s.keyAt? a = some ka) (hb : s.keyAt? b = some kb) {ca} (h : findCommonAncestorFromSgh ka kb s = .ok ca) :
    ca.pseudo = true ∧ ca.layers.map (·.segmentGroupKey) = s.pathKeys (lcp a b) := by
  unfold findCommonAncestorFromSgh at h
  simp only [bind, Except.bind] at h
  split at h
  · cases h
  · next rx hrx =>
    have hx := constructPseudoLocation_spec _ _ _ _ hrx
    cases rx with
    | none => cases h
    | some x =>
      simp only at h
      split at h
      · cases h
      · next ry hry =>
        have hy := constructPseudoLocation_spec _ _ _ _ hry
        cases ry with
        | none => cases h
        | some y =>
          obtain ⟨p1, a', k1, l1⟩ := hx.1 x rfl
          obtain ⟨p2, b', k2, l2⟩ := hy.1 y rfl
          obtain rfl := hd.keyAt_inj ha k1
          obtain rfl := hd.keyAt_inj hb k2
          unfold findCommonAncestor at h
          simp only at h
          obtain ⟨rfl, _⟩ := locationNew_ok h
          have sa := Sgh.isSome_of_keyAt ha
          have sb := Sgh.isSome_of_keyAt hb
          refine ⟨by simp [p1], ?_⟩
          simp only [p1, Bool.true_or, commonLayers_true, l1, l2, List.map_nil, List.nil_append, List.map_take]
          rw [Sgh.pathKeys_lcp hd sa sb, Sgh.pathKeys_take sa, ← List.prefix_iff_eq_take.1 (lcp_prefix_left a b)]

theorem findCommonAncestorFromSgh_ok {s : Sgh} (hv : s.LayersValid) {a b : List Nat} {ka kb}
    (ha : s.keyAt? a = some ka) (hb : s.keyAt? b = some kb) : ∃ ca, findCommonAncestorFromSgh ka kb s = .ok ca := by
  unfold findCommonAncestorFromSgh
  obtain ⟨rx, hrx⟩ := constructPseudoLocation_ok ka s hv []
  obtain ⟨ry, hry⟩ := constructPseudoLocation_ok kb s hv []
  have hx := constructPseudoLocation_spec _ _ _ _ hrx
  have hy := constructPseudoLocation_spec _ _ _ _ hry
  cases rx with
  | none => exact absurd ha (hx.2 rfl a)
  | some x =>
    cases ry with
    | none => exact absurd hb (hy.2 rfl b)
    | some y =>
      simp only [hrx, hry, bind, Except.bind]
      obtain ⟨p1, a', k1, l1⟩ := hx.1 x rfl
      obtain ⟨p2, b', k2, l2⟩ := hy.1 y rfl
      unfold findCommonAncestor
      refine ⟨_, locationNew_of_valid ?_ rfl rfl⟩
      simp only [p1, Bool.true_or, commonLayers_true, l1, l2, List.map_nil, List.nil_append]
      have e1 := Sgh.pathKeys_head s a'
      have e2 := Sgh.pathKeys_head s b'
      cases h1 : s.pathKeys a' with
      | nil => rw [h1] at e1; simp at e1
      | cons u us =>
        cases h2 : s.pathKeys b' with
        | nil => rw [h2] at e2; simp at e2
        | cons v vs =>
          rw [h1] at e1 l1; rw [h2] at e2
          simp only [List.head?_cons, Option.some.injEq] at e1 e2
          subst e1; subst e2
          cases hxl : x.layers with
          | nil => rw [hxl] at l1; simp at l1
          | cons w ws => simp [lcp]

/-! ## leaving groups -/

/-- no layer met while popping has the searched key: exactly `n` layers are removed -/
theorem leavePops_none {key n} {layers : List AhbLocationLayer} (hn : n < layers.length)
    (hno : ∀ i l, 1 ≤ i → i ≤ n → layers[layers.length - i - 1]? = some l → l.segmentGroupKey ≠ key) :
    leavePops key n layers = .ok (layers.take (layers.length - n)) := by
  induction n generalizing layers with
  | zero => simp [leavePops]
  | succ n ih =>
    have hp : pyPop layers = .ok layers.dropLast := by
      cases layers with
      | nil => simp at hn
      | cons x l => rfl
    have hlt : layers.length - 1 - 1 < layers.length := by omega
    have hl : pyLast layers.dropLast = .ok (layers[layers.length - 1 - 1]) := by
      unfold pyLast
      rw [List.getLast?_eq_getElem?, List.length_dropLast, List.getElem?_dropLast, if_pos (by omega),
        List.getElem?_eq_getElem hlt]
    have hk : ¬ (layers[layers.length - 1 - 1]).segmentGroupKey = key :=
      hno 1 _ (by omega) (by omega) (List.getElem?_eq_getElem hlt)
    simp only [leavePops, hp, hl, bind, Except.bind, hk, if_false, pure, Except.pure]
    rw [ih (by rw [List.length_dropLast]; omega)]
    · rw [List.length_dropLast, List.dropLast_eq_take, List.take_take]
      congr 2; omega
    · intro i l hi hin hil
      rw [List.length_dropLast, List.getElem?_dropLast, if_pos (by omega)] at hil
      exact hno (i + 1) l (by omega) (by omega) (by rw [← hil]; congr 1; omega)

/-- only the last layer met has the searched key: it is removed, too -/
theorem leavePops_last {key n} {layers : List AhbLocationLayer} (h0 : 1 ≤ n) (hn : n < layers.length)
    (hno : ∀ i l, 1 ≤ i → i < n → layers[layers.length - i - 1]? = some l → l.segmentGroupKey ≠ key)
    (hyes : ∀ l, layers[layers.length - n - 1]? = some l → l.segmentGroupKey = key) :
    leavePops key n layers = .ok (layers.take (layers.length - n - 1)) := by
  induction n generalizing layers with
  | zero => omega
  | succ n ih =>
    have hp : pyPop layers = .ok layers.dropLast := by
      cases layers with
      | nil => simp at hn
      | cons x l => rfl
    have hlt : layers.length - 1 - 1 < layers.length := by omega
    have hl : pyLast layers.dropLast = .ok (layers[layers.length - 1 - 1]) := by
      unfold pyLast
      rw [List.getLast?_eq_getElem?, List.length_dropLast, List.getElem?_dropLast, if_pos (by omega),
        List.getElem?_eq_getElem hlt]
    cases n with
    | zero =>
      have hk : (layers[layers.length - 1 - 1]).segmentGroupKey = key := hyes _ (List.getElem?_eq_getElem hlt)
      have hp2 : pyPop layers.dropLast = .ok layers.dropLast.dropLast := by
        cases h : layers.dropLast with
        | nil =>
          have := congrArg List.length h
          rw [List.length_dropLast] at this; simp at this; omega
        | cons x l => rfl
      simp only [leavePops, hp, hl, hp2, bind, Except.bind, hk, if_true]
      rw [List.dropLast_eq_take, List.dropLast_eq_take, List.take_take, List.length_take]
      congr 2; omega
    | succ n =>
      have hk : ¬ (layers[layers.length - 1 - 1]).segmentGroupKey = key :=
        hno 1 _ (by omega) (by omega) (List.getElem?_eq_getElem hlt)
      rw [leavePops]
      simp only [hp, hl, bind, Except.bind, hk, if_false, pure, Except.pure]
      rw [ih (by omega) (by rw [List.length_dropLast]; omega)]
      · rw [List.length_dropLast, List.dropLast_eq_take, List.take_take]
        congr 2; omega
      · intro i l hi hin hil
        rw [List.length_dropLast, List.getElem?_dropLast, if_pos (by omega)] at hil
        exact hno (i + 1) l (by omega) (by omega) (by rw [← hil]; congr 1; omega)
      · intro l hil
        rw [List.length_dropLast, List.getElem?_dropLast, if_pos (by omega)] at hil
        exact hyes l (by rw [← hil]; congr 1; omega)

/-- the LEAVE branch: if the parent of the new group is open, exactly the layers outside of the new group remain -/
theorem leave_layers {s : Sgh} (hd : s.KeysDistinct) {a b : List Nat} {ka kb : Option PyStr}
    (ha : s.keyAt? a = some ka) (hb : s.keyAt? b = some kb) (hopen : b.dropLast <+: a) (hnb : ¬ a <+: b)
    {x ca : AhbLocation} (hx : x.layers.map (·.segmentGroupKey) = s.pathKeys a)
    (hca : ca.layers.map (·.segmentGroupKey) = s.pathKeys (lcp a b)) (hps : ca.pseudo = true) :
    ∃ d, calculateDistance x ca = .ok d ∧ leavePops kb d.layersUp x.layers = .ok (x.layers.take b.length) := by
  have sa := Sgh.isSome_of_keyAt ha
  have sb := Sgh.isSome_of_keyAt hb
  have hxl : x.layers.length = a.length + 1 := by
    have := congrArg List.length hx; rwa [List.length_map, Sgh.pathKeys_length sa] at this
  have sl : (s.at? (lcp a b)).isSome = true := by
    rw [List.prefix_iff_eq_take.1 (lcp_prefix_left a b)]; exact Sgh.at?_take sa _
  have hcal : ca.layers.length = (lcp a b).length + 1 := by
    have := congrArg List.length hca; rwa [List.length_map, Sgh.pathKeys_length sl] at this
  have hll := (lcp_prefix_left a b).length_le
  have hlr := (lcp_prefix_right a b).length_le
  have hpre : lcp (x.layers.map (·.segmentGroupKey)) (ca.layers.map (·.segmentGroupKey)) = s.pathKeys (lcp a b) := by
    rw [hx, hca, lcp_comm]
    apply lcp_of_prefix
    rw [List.prefix_iff_eq_take.1 (lcp_prefix_left a b), ← Sgh.pathKeys_take sa]
    exact List.take_prefix _ _
  have hcomm : (commonLayers true x.layers ca.layers).length = (lcp a b).length + 1 := by
    rw [commonLayers_true, hpre, Sgh.pathKeys_length sl, List.length_take]; omega
  have hdist : calculateDistance x ca = .ok { layersUp := a.length - (lcp a b).length, layersDown := 0 } := by
    unfold calculateDistance findCommonAncestor
    rw [hps, Bool.or_true, locationNew_of_valid (by intro h; rw [h] at hcomm; simp at hcomm) rfl rfl]
    simp only [bind, Except.bind, hcomm, hxl, hcal]
    unfold AhbLocationDistance.new
    rw [if_neg (by omega)]
    congr 2 <;> omega
  refine ⟨_, hdist, ?_⟩
  simp only
  -- keys of the layers
  have hkey : ∀ j l, x.layers[j]? = some l → s.keyAt? (a.take j) = some l.segmentGroupKey := by
    intro j l hj
    have hjl := (List.getElem?_eq_some_iff.1 hj).1
    rw [← Sgh.pathKeys_getElem? sa j (by omega), ← hx, List.getElem?_map, hj]; rfl
  by_cases hba : b <+: a
  · -- back to an enclosing group
    have hlcp : lcp a b = b := by rw [lcp_comm]; exact lcp_of_prefix hba
    have hlt : b.length < a.length := by
      have := hba.length_le
      rcases Nat.lt_or_ge b.length a.length with h | h
      · exact h
      · exact absurd (hba.eq_of_length (by omega) ▸ List.prefix_refl _) hnb
    rw [hlcp, leavePops_last (by omega) (by omega)]
    · congr 2; omega
    · intro i l hi hin hl hk
      have h1 := hkey _ l hl
      rw [hk] at h1
      have h2 := congrArg List.length (hd.keyAt_inj h1 hb)
      rw [List.length_take] at h2
      omega
    · intro l hl
      have h1 := hkey _ l hl
      have h2 : x.layers.length - (a.length - b.length) - 1 = b.length := by omega
      rw [h2, ← List.prefix_iff_eq_take.1 hba, hb] at h1
      exact (Option.some.inj h1).symm
  · -- to a group next to an enclosing group
    have hbne : b ≠ [] := by rintro rfl; exact hba (List.nil_prefix)
    have hblen : b.length ≠ 0 := by simpa using hbne
    have hlcp : (lcp a b).length = b.length - 1 := by
      have h1 := (lcp_greatest hopen (List.dropLast_prefix b)).length_le
      rw [List.length_dropLast] at h1
      have h2 : (lcp a b).length ≠ b.length := by
        intro h
        apply hba
        rw [← lcp_eq_left_iff, lcp_comm]; exact h
      omega
    have hle := hopen.length_le
    rw [List.length_dropLast] at hle
    rw [leavePops_none (by omega)]
    · congr 2; omega
    · intro i l hi hin hl hk
      have h1 := hkey _ l hl
      rw [hk] at h1
      have h2 := hd.keyAt_inj h1 hb
      exact hba (h2 ▸ List.take_prefix _ _)

end Verif
