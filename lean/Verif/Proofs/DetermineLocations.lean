import Verif.Proofs.Changes
import Verif.Proofs.Lcp
/-! lemmas about `determine_locations` -/

namespace Verif

theorem foldlM_ok {σ α : Type} (f : σ → α → PyRes σ) (xs : List α) (s t : σ) (h : xs.foldlM f s = .ok t) :
    ∃ ss : Nat → σ, ss 0 = s ∧ ss xs.length = t ∧ ∀ n x, xs[n]? = some x → f (ss n) x = .ok (ss (n + 1)) := by
  induction xs generalizing s with
  | nil =>
    simp only [List.foldlM_nil, pure, Except.pure, Except.ok.injEq] at h
    exact ⟨fun _ => s, rfl, h, by simp⟩
  | cons x xs ih =>
    simp only [List.foldlM_cons, bind, Except.bind] at h
    split at h
    · cases h
    · next s' hs' =>
      obtain ⟨ss, h0, h1, h2⟩ := ih s' h
      refine ⟨fun n => match n with
        | 0 => s
        | n + 1 => ss n, rfl, by simpa using h1, ?_⟩
      intro n y hy
      cases n with
      | zero => simp only [List.getElem?_cons_zero, Option.some.injEq] at hy; subst hy; simp [hs', h0]
      | succ n => simpa using h2 n y (by simpa using hy)

theorem layerNew_ok {k o q l} (h : AhbLocationLayer.new k o q = .ok l) : ∃ o', o = some o' ∧ l = ⟨k, o', q⟩ := by
  unfold AhbLocationLayer.new at h
  split at h
  · cases h
  · split at h
    · cases h
    · split at h
      · cases h
      · split at h
        · cases h
        · cases h; exact ⟨_, rfl, rfl⟩

theorem locationNew_ok {layers sc de q p l} (h : AhbLocation.new layers sc de q p = .ok l) :
    l = ⟨layers, sc, de, q, p⟩ ∧ layers ≠ [] := by
  unfold AhbLocation.new at h
  split at h
  · cases h
  · next hl =>
    split at h
    · cases h
    · split at h
      · cases h
      · cases h
        refine ⟨rfl, ?_⟩
        rintro rfl
        simp at hl

/-- the items of the loop in `determine_locations` -/
def locItems (sgh : Sgh) (lines : List AhbLine) : List ((AhbLine × Change) × Option PyStr × Option PyStr) :=
  zip3 (changesLoop sgh ChangeState.init (items lines)) (lookAhead AhbLine.segmentCode lines)
    (lookAhead AhbLine.valuePoolEntry lines)

theorem locItems_getElem? (sgh : Sgh) (lines : List AhbLine) (n : Nat) :
    (locItems sgh lines)[n]? =
      (lines[n]?).map fun l => ((l, changeAt sgh lines n l), nextSegmentAt lines n, nextQualifierAt lines n) := by
  unfold locItems
  rw [zip3_getElem?, changes_getElem?]
  by_cases h : n < lines.length
  · simp [lookAhead_getElem? _ lines n h, h, nextSegmentAt, nextQualifierAt]
  · simp [List.getElem?_eq_none (Nat.le_of_not_lt h)]

theorem length_eq_of_getElem?_map {α β : Type} {xs : List α} {ys : List β} {f : Nat → α → β}
    (h : ∀ n, ys[n]? = (xs[n]?).map (f n)) : ys.length = xs.length := by
  apply Nat.le_antisymm
  · apply Nat.le_of_not_lt
    intro hlt
    have h1 := h xs.length
    rw [List.getElem?_eq_getElem hlt] at h1
    simp at h1
  · apply Nat.le_of_not_lt
    intro hlt
    have h1 := h ys.length
    rw [List.getElem?_eq_getElem hlt] at h1
    simp at h1

theorem locItems_length (sgh : Sgh) (lines : List AhbLine) : (locItems sgh lines).length = lines.length :=
  length_eq_of_getElem?_map (locItems_getElem? sgh lines)

theorem determineLocations_eq (sgh : Sgh) (lines : List AhbLine) :
    determineLocations sgh lines = (do
      let start ← AhbLocationLayer.new sgh.segmentGroup (some sgh.openingSegment) none
      let st ← (locItems sgh lines).foldlM (locStep sgh) { layers := [start], result := [] }
      pure st.result) := by
  obtain ⟨r1, h1, h1'⟩ := enhance_spec AhbLine.segmentCode lines
  obtain ⟨r2, h2, h2'⟩ := enhance_spec AhbLine.valuePoolEntry lines
  unfold determineLocations
  rw [changes_eq]
  simp only [enhanceWithNextSegment, enhanceWithNextValuePoolEntry, h1, h2, bind, Except.bind, h1', h2']
  rfl

theorem pyPop_ok {α : Type} {l r : List α} (h : pyPop l = .ok r) : l ≠ [] ∧ r = l.dropLast := by
  unfold pyPop at h
  split at h
  · cases h
  · cases h; exact ⟨by simp, rfl⟩

theorem pyLast_ok {α : Type} {l : List α} {x : α} (h : pyLast l = .ok x) : l.getLast? = some x := by
  unfold pyLast at h
  split at h
  · next y hy => cases h; exact hy
  · cases h

/-- leaving groups only removes layers from the end; everything is removed only if the root has the searched key -/
theorem leavePops_ok {key n} {layers r : List AhbLocationLayer} (h : leavePops key n layers = .ok r) :
    r <+: layers ∧ (r = [] → layers = [] ∨ ∃ l, layers.head? = some l ∧ l.segmentGroupKey = key) := by
  induction n generalizing layers with
  | zero => cases h; exact ⟨List.prefix_refl _, fun h => Or.inl h⟩
  | succ n ih =>
    simp only [leavePops, bind, Except.bind] at h
    split at h
    · cases h
    · next l1 hp1 =>
      obtain ⟨hne, rfl⟩ := pyPop_ok hp1
      split at h
      · cases h
      · next x hx =>
        have hx := pyLast_ok hx
        have hd : layers.dropLast <+: layers := List.dropLast_prefix layers
        have hhead : layers.dropLast ≠ [] → layers.dropLast.head? = layers.head? := by
          intro hne'
          cases layers with
          | nil => simp
          | cons a as => cases as with
            | nil => simp at hne'
            | cons b bs => simp
        split at h
        · next hk =>
          split at h
          · cases h
          · next l2 hp2 =>
            obtain ⟨hne2, rfl⟩ := pyPop_ok hp2
            obtain ⟨h1, h2⟩ := ih h
            have hd2 : layers.dropLast.dropLast <+: layers.dropLast := List.dropLast_prefix _
            refine ⟨(h1.trans hd2).trans hd, fun hr => ?_⟩
            right
            rcases h2 hr with h3 | ⟨l, hl, hlk⟩
            · -- only one layer was left
              refine ⟨x, ?_, hk⟩
              rw [← hhead hne2]
              cases hdl : layers.dropLast with
              | nil => exact absurd hdl hne2
              | cons a as =>
                rw [hdl] at h3 hx
                cases as with
                | nil => simpa using hx
                | cons b bs => simp at h3
            · refine ⟨l, ?_, hlk⟩
              rw [← hhead hne2, ← hl]
              cases hdl : layers.dropLast with
              | nil => simp
              | cons a as => cases as with
                | nil => rw [hdl] at hl; simp at hl
                | cons b bs => simp
        · next hk =>
          simp only [pure, Except.pure] at h
          obtain ⟨h1, h2⟩ := ih h
          refine ⟨h1.trans hd, fun hr => ?_⟩
          rcases h2 hr with h3 | ⟨l, hl, hlk⟩
          · rw [h3] at hx; simp at hx
          · right
            refine ⟨l, ?_, hlk⟩
            rw [← hhead (by intro hn; rw [hn] at hl; simp at hl), hl]

/-- what one step does to the layers -/
def StepLayers (sgh : Sgh) (base : List AhbLocationLayer) (line : AhbLine) (c : Change) (seg qual : Option PyStr)
    (layers : List AhbLocationLayer) : Prop :=
  (c = .stay ∧ layers = base) ∨
  (c ≠ .stay ∧ ∃ outer o, seg = some o ∧ layers = outer ++ [⟨line.segmentGroupKey, o, qual⟩] ∧ outer <+: base ∧
    (c = .diveIntoSubGroup → outer = base) ∧ (c = .moveToNeighbourSameKey → outer = base.dropLast) ∧
    (c = .leaveToParentAndDive → (outer = [] → ∃ l, base.head? = some l ∧ l.segmentGroupKey = line.segmentGroupKey) ∧
      ∃ (x : AhbLocation) (l : AhbLocationLayer) (ca : AhbLocation) (d : AhbLocationDistance),
        x.layers = base ∧ x.pseudo = false ∧ base.getLast? = some l ∧
        findCommonAncestorFromSgh l.segmentGroupKey line.segmentGroupKey sgh = .ok ca ∧
        calculateDistance x ca = .ok d ∧ leavePops line.segmentGroupKey d.layersUp base = .ok outer))

/-- the layers before a step, after the root layer received its qualifier -/
def baseLayers (sgh : Sgh) (st : LocState) (qual : Option PyStr) : List AhbLocationLayer :=
  if st.result = [] then [⟨sgh.segmentGroup, sgh.openingSegment, qual⟩] else st.layers

/-- invariant of the loop state -/
def LocState.Ok (sgh : Sgh) (st : LocState) : Prop :=
  (st.result = [] → st.layers = [⟨sgh.segmentGroup, sgh.openingSegment, none⟩]) ∧
  (∀ p, st.result.getLast? = some p → p.2.layers = st.layers ∧ st.layers ≠ [] ∧ p.2.pseudo = false)

theorem initialLayers_ok {sgh st qual r} (hinv : st.Ok sgh) (h : initialLayers sgh st qual = .ok r) :
    r = baseLayers sgh st qual := by
  unfold initialLayers at h
  simp only [bind, Except.bind] at h
  split at h
  · cases h
  · next x hx =>
    have hx := pyLast_ok hx
    by_cases hr : st.result = []
    · have hl := hinv.1 hr
      rw [hl] at hx
      simp only [List.getLast?_singleton, Option.some.injEq] at hx
      rw [if_pos ⟨by rw [← hx], by simp [hr]⟩] at h
      split at h
      · cases h
      · next l hl' =>
        obtain ⟨o', ho, rfl⟩ := layerNew_ok hl'
        cases ho
        cases h
        simp [baseLayers, hr, hl]
    · rw [if_neg (by simp [hr])] at h
      cases h
      simp [baseLayers, hr]

theorem appendLocation_ok {st line seg layers st'} (h : appendLocation st line seg layers = .ok st') :
    st'.layers = layers ∧ layers ≠ [] ∧
    st'.result = st.result ++ [(line, ⟨layers, seg, line.dataElement, line.valuePoolEntry, false⟩)] := by
  simp only [appendLocation, bind, Except.bind] at h
  split at h
  · cases h
  · next l hl =>
    obtain ⟨rfl, hne⟩ := locationNew_ok hl
    cases h
    exact ⟨rfl, hne, rfl⟩

theorem locStep_ok {sgh st line c seg qual st'} (hinv : st.Ok sgh) (hc : c ≠ .moveToNeighbourDifferentKey)
    (h : locStep sgh st ((line, c), seg, qual) = .ok st') :
    st'.Ok sgh ∧
    ∃ layers, st'.layers = layers ∧ layers ≠ [] ∧
      st'.result = st.result ++ [(line, ⟨layers, seg, line.dataElement, line.valuePoolEntry, false⟩)] ∧
      StepLayers sgh (baseLayers sgh st qual) line c seg qual layers := by
  have main : ∃ layers, st'.layers = layers ∧ layers ≠ [] ∧
      st'.result = st.result ++ [(line, ⟨layers, seg, line.dataElement, line.valuePoolEntry, false⟩)] ∧
      StepLayers sgh (baseLayers sgh st qual) line c seg qual layers := by
    have hbase : st.result = [] ∨ baseLayers sgh st qual = st.layers := by
      by_cases hr : st.result = []
      · exact Or.inl hr
      · right; simp [baseLayers, hr]
    simp only [locStep, bind, Except.bind] at h
    split at h
    · cases h
    · next base hbase' =>
      have := initialLayers_ok hinv hbase'
      subst this
      cases c with
      | stay =>
        obtain ⟨h1, h2, h3⟩ := appendLocation_ok h
        exact ⟨_, h1, h2, h3, Or.inl ⟨rfl, rfl⟩⟩
      | moveToNeighbourSameKey =>
        simp only at h
        split at h
        · cases h
        · next l1 hp =>
          obtain ⟨hne, rfl⟩ := pyPop_ok hp
          split at h
          · cases h
          · next nl hnl =>
            obtain ⟨o, rfl, rfl⟩ := layerNew_ok hnl
            obtain ⟨h1, h2, h3⟩ := appendLocation_ok h
            refine ⟨_, h1, h2, h3, Or.inr ⟨by simp, _, o, rfl, rfl, List.dropLast_prefix _, by simp, by simp, by simp⟩⟩
      | diveIntoSubGroup =>
        simp only at h
        split at h
        · cases h
        · next nl hnl =>
          obtain ⟨o, rfl, rfl⟩ := layerNew_ok hnl
          obtain ⟨h1, h2, h3⟩ := appendLocation_ok h
          refine ⟨_, h1, h2, h3, Or.inr ⟨by simp, _, o, rfl, rfl, List.prefix_refl _, by simp, by simp, by simp⟩⟩
      | leaveToParent => cases h
      | moveToNeighbourDifferentKey => exact absurd rfl hc
      | leaveToParentAndDive =>
        simp only at h
        split at h
        · cases h
        · next lr hlr =>
          have hlr := pyLast_ok hlr
          split at h
          · cases h
          · next ll hll =>
            split at h
            · cases h
            · next ca hca =>
              split at h
              · cases h
              · next d hd =>
                split at h
                · cases h
                · next r hpops =>
                  split at h
                  · cases h
                  · next nl hnl =>
                    obtain ⟨o, rfl, rfl⟩ := layerNew_ok hnl
                    obtain ⟨h1, h2, h3⟩ := appendLocation_ok h
                    obtain ⟨hp1, hp2⟩ := leavePops_ok hpops
                    refine ⟨_, h1, h2, h3, Or.inr ⟨by simp, _, o, rfl, rfl, hp1, by simp, by simp, ?_⟩⟩
                    intro _
                    have h5 : baseLayers sgh st qual = st.layers := by
                      rcases hbase with h5 | h5
                      · rw [h5] at hlr; simp at hlr
                      · exact h5
                    obtain ⟨e1, e2, e3⟩ := hinv.2 lr hlr
                    refine ⟨fun hr => ?_, lr.2, ll, ca, d, by rw [h5, e1], e3, ?_, hca, hd, hpops⟩
                    · rcases hp2 hr with h4 | h4
                      · rw [h5] at h4; exact absurd h4 e2
                      · exact h4
                    · rw [h5, ← e1]; exact pyLast_ok hll
  refine ⟨?_, main⟩
  obtain ⟨layers, h1, h2, h3, _⟩ := main
  constructor
  · intro hr; rw [h3] at hr; simp at hr
  · intro p hp
    rw [h3] at hp
    simp only [List.getLast?_append, List.getLast?_singleton, Option.some_or, Option.some.injEq] at hp
    subst hp
    exact ⟨h1.symm, h1 ▸ h2, rfl⟩

/-- the layers that are open before line `n` is processed -/
def openBefore (sgh : Sgh) (lines : List AhbLine) (res : List (AhbLine × AhbLocation)) : Nat → List AhbLocationLayer
  | 0 => [⟨sgh.segmentGroup, sgh.openingSegment, nextQualifierAt lines 0⟩]
  | n + 1 => match res[n]? with
    | some p => p.2.layers
    | none => []

theorem changeAt_ne (sgh : Sgh) (lines : List AhbLine) (n : Nat) (line : AhbLine) (h : lines[n]? = some line) :
    changeAt sgh lines n line ≠ .moveToNeighbourDifferentKey ∧ changeAt sgh lines n line ≠ .leaveToParent := by
  obtain ⟨h1, h2⟩ := changeAt_sound sgh lines n line h
  by_cases hk : line.segmentGroupKey = previousKeyAt lines n
  · rcases h1 hk with h | h <;> simp [h]
  · rw [h2 hk]; split <;> simp

/-- the trace of a successful run -/
theorem determineLocations_trace {sgh : Sgh} {lines : List AhbLine} {res : List (AhbLine × AhbLocation)}
    (h : determineLocations sgh lines = .ok res) :
    res.length = lines.length ∧ ∀ n line, lines[n]? = some line → ∃ layers,
      res[n]? = some (line, ⟨layers, nextSegmentAt lines n, line.dataElement, line.valuePoolEntry, false⟩) ∧
      layers ≠ [] ∧
      StepLayers sgh (openBefore sgh lines res n) line (changeAt sgh lines n line) (nextSegmentAt lines n)
        (nextQualifierAt lines n) layers := by
  rw [determineLocations_eq] at h
  simp only [bind, Except.bind] at h
  split at h
  · cases h
  · next start hstart =>
    obtain ⟨o, ho, rfl⟩ := layerNew_ok hstart
    cases ho
    split at h
    · cases h
    · next st hst =>
      cases h
      obtain ⟨ss, h0, hend, hstep⟩ := foldlM_ok _ _ _ _ hst
      rw [locItems_length] at hend
      -- invariant over n
      have inv : ∀ n, n ≤ lines.length → (ss n).Ok sgh ∧ (ss n).result.length = n ∧
          (∀ m, m ≤ n → (ss m).result = (ss n).result.take m) := by
        intro n
        induction n with
        | zero =>
          intro _
          rw [h0]
          exact ⟨⟨fun _ => rfl, by simp⟩, rfl, fun m hm => by
            obtain rfl : m = 0 := by omega
            rw [h0]; rfl⟩
        | succ n ih =>
          intro hn
          obtain ⟨i1, i2, i3⟩ := ih (by omega)
          have hl : lines[n]? = some lines[n] := List.getElem?_eq_getElem (by omega)
          have hs := hstep n _ (by rw [locItems_getElem?, hl]; rfl)
          obtain ⟨j1, layers, j2, j3, j4, j5⟩ := locStep_ok i1 (changeAt_ne sgh lines n _ hl).1 hs
          refine ⟨j1, by rw [j4]; simp [i2], ?_⟩
          intro m hm
          rcases Nat.lt_or_ge m (n + 1) with hlt | hge
          · rw [i3 m (by omega), j4, List.take_append_of_le_length (by omega)]
          · obtain rfl : m = n + 1 := by omega
            rw [List.take_of_length_le (by rw [j4]; simp [i2])]
      obtain ⟨_, k2, k3⟩ := inv lines.length (Nat.le_refl _)
      rw [hend] at k2 k3
      refine ⟨k2, ?_⟩
      intro n line hn
      have hlt : n < lines.length := (List.getElem?_eq_some_iff.1 hn).1
      obtain ⟨i1, i2, i3⟩ := inv n (by omega)
      have hs := hstep n _ (by rw [locItems_getElem?, hn]; rfl)
      obtain ⟨j1, layers, j2, j3, j4, j5⟩ := locStep_ok i1 (changeAt_ne sgh lines n _ hn).1 hs
      refine ⟨layers, ?_, j3, ?_⟩
      · have hk := k3 (n + 1) (by omega)
        rw [j4] at hk
        have h6 : st.result[n]? = (st.result.take (n + 1))[n]? := by
          rw [List.getElem?_take_of_lt (by omega)]
        rw [h6, ← hk, List.getElem?_append_right (by omega)]
        simp [i2]
      · suffices hb : baseLayers sgh (ss n) (nextQualifierAt lines n) = openBefore sgh lines st.result n by
          rwa [hb] at j5
        cases n with
        | zero =>
          have : (ss 0).result = [] := List.length_eq_zero_iff.1 i2
          simp [baseLayers, this, openBefore]
        | succ n =>
          have hne : (ss (n + 1)).result ≠ [] := by
            intro hc; rw [hc] at i2; simp at i2
          simp only [baseLayers, hne, if_false, openBefore]
          have h7 := k3 (n + 1) (by omega)
          have h8 : (ss (n + 1)).result.getLast? = st.result[n]? := by
            rw [List.getLast?_eq_getElem?, i2, h7]
            simp [List.getElem?_take_of_lt]
          have h9 : n < st.result.length := by omega
          rw [List.getElem?_eq_getElem h9] at h8 ⊢
          exact ((i1.2 _ h8).1).symm

end Verif
