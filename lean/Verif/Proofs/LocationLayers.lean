import Verif.Spec.LocationLayers
import Verif.Props.DetermineLocations
/-! the layers of a location are the most recent openings of their groups; the codes of the lines are acceptable -/

namespace Verif

/-- the test of `lastOpeningOf` -/
def opensAt (changes : List (AhbLine × Change)) (k : Option PyStr) (m : Nat) : Bool :=
  match changes[m]? with
  | some (line, c) => c ≠ .stay ∧ line.segmentGroupKey = k
  | none => false

/-- `layerAt` for the line numbers below `n` -/
def layerBelow (sgh : Sgh) (lines : List AhbLine) (changes : List (AhbLine × Change)) (n : Nat) (k : Option PyStr) :
    AhbLocationLayer :=
  match (List.range n).reverse.find? (opensAt changes k) with
  | some m => ⟨k, (nextSegmentAt lines m).getD [], nextQualifierAt lines m⟩
  | none => ⟨k, sgh.openingSegment, nextQualifierAt lines 0⟩

theorem layerAt_eq (sgh : Sgh) (lines : List AhbLine) (changes : List (AhbLine × Change)) (n : Nat) (k : Option PyStr) :
    layerAt sgh lines changes n k = layerBelow sgh lines changes (n + 1) k := rfl

theorem layerBelow_key (sgh : Sgh) (lines : List AhbLine) (changes : List (AhbLine × Change)) (n : Nat)
    (k : Option PyStr) : (layerBelow sgh lines changes n k).segmentGroupKey = k := by
  unfold layerBelow; split <;> rfl

theorem layerBelow_map_key (sgh : Sgh) (lines : List AhbLine) (changes : List (AhbLine × Change)) (n : Nat)
    (ks : List (Option PyStr)) : (ks.map (layerBelow sgh lines changes n)).map (·.segmentGroupKey) = ks := by
  rw [List.map_map]
  conv => rhs; rw [← List.map_id ks]
  apply List.map_congr_left
  intro k _
  exact layerBelow_key ..

theorem layerBelow_succ_of_not {sgh : Sgh} {lines : List AhbLine} {changes : List (AhbLine × Change)} {n : Nat}
    {k : Option PyStr} (h : opensAt changes k n = false) :
    layerBelow sgh lines changes (n + 1) k = layerBelow sgh lines changes n k := by
  unfold layerBelow
  rw [List.range_succ, List.reverse_append, List.reverse_singleton, List.singleton_append, List.find?_cons, h]

theorem layerBelow_succ_of {sgh : Sgh} {lines : List AhbLine} {changes : List (AhbLine × Change)} {n : Nat}
    {k : Option PyStr} (h : opensAt changes k n = true) :
    layerBelow sgh lines changes (n + 1) k = ⟨k, (nextSegmentAt lines n).getD [], nextQualifierAt lines n⟩ := by
  unfold layerBelow
  rw [List.range_succ, List.reverse_append, List.reverse_singleton, List.singleton_append, List.find?_cons, h]

theorem Sgh.KeysDistinct.pathKeys_nodup {s : Sgh} (hd : s.KeysDistinct) {a : List Nat} (h : (s.at? a).isSome = true) :
    (s.pathKeys a).Nodup := by
  unfold List.Nodup
  rw [List.pairwise_iff_getElem]
  intro i j hi hj hlt hij
  have hl := Sgh.pathKeys_length h
  have h1 := Sgh.pathKeys_getElem? h i (by omega)
  have h2 := Sgh.pathKeys_getElem? h j (by omega)
  rw [List.getElem?_eq_getElem hi] at h1
  rw [List.getElem?_eq_getElem hj, ← hij] at h2
  have h3 := congrArg List.length (hd.keyAt_inj h1.symm h2.symm)
  rw [List.length_take, List.length_take] at h3
  omega

/-- under the assumptions of C11 the open layers are the most recent openings along the path -/
theorem locations_layers {sgh : Sgh} (hd : sgh.KeysDistinct) (hroot : sgh.segmentGroup = none) {lines : List AhbLine}
    (hskip : NoSkippedLevels sgh lines) {res : List (AhbLine × AhbLocation)}
    (h : determineLocations sgh lines = .ok res) {changes : List (AhbLine × Change)}
    (hch : determineHierarchyChanges lines sgh = .ok changes) (n : Nat) (hn : n ≤ lines.length) :
    ∃ a, sgh.keyAt? a = some (previousKeyAt lines n) ∧
      openBefore sgh lines res n = (sgh.pathKeys a).map (layerBelow sgh lines changes n) := by
  obtain ⟨hlen, htr⟩ := determineLocations_trace h
  rw [changes_eq] at hch
  cases hch
  induction n with
  | zero => exact ⟨[], by simp [Sgh.keyAt?, previousKeyAt, hroot], by simp [openBefore, Sgh.pathKeys, layerBelow]⟩
  | succ n ih =>
    obtain ⟨a, ha, hb⟩ := ih (by omega)
    have hl : lines[n]? = some lines[n] := List.getElem?_eq_getElem (by omega)
    obtain ⟨layers, h1, h2, h3⟩ := htr n _ hl
    have hkeys : (openBefore sgh lines res n).map (·.segmentGroupKey) = sgh.pathKeys a := by
      rw [hb, layerBelow_map_key]
    obtain ⟨b, hkb, hpb⟩ := stepLayers_path hd hl ha hkeys (hskip n _ hl) h3
    refine ⟨b, by simpa [previousKeyAt, hl] using hkb, ?_⟩
    have hob : openBefore sgh lines res (n + 1) = layers := by simp [openBefore, h1]
    rw [hob]
    have hat : ∀ k, opensAt (changesLoop sgh ChangeState.init (items lines)) k n =
        decide (changeAt sgh lines n lines[n] ≠ .stay ∧ lines[n].segmentGroupKey = k) := by
      intro k; unfold opensAt; rw [changes_getElem?, hl]; rfl
    rcases h3 with ⟨hs, rfl⟩ | ⟨hne, outer, o, hseg, rfl, hpre, _⟩
    · rw [hkeys] at hpb
      rw [hb, ← hpb]
      apply List.map_congr_left
      intro k _
      rw [layerBelow_succ_of_not (by rw [hat]; simp [hs])]
    · have hnd := hd.pathKeys_nodup (Sgh.isSome_of_keyAt hkb)
      rw [List.map_append, List.map_singleton] at hpb
      rw [← hpb] at hnd ⊢
      rw [List.map_append, List.map_singleton]
      congr 1
      · rw [List.prefix_iff_eq_take, hb] at hpre
        have ho : outer = (outer.map (·.segmentGroupKey)).map
            (layerBelow sgh lines (changesLoop sgh ChangeState.init (items lines)) n) := by
          rw [← List.map_take] at hpre
          generalize (sgh.pathKeys a).take outer.length = ks at hpre
          rw [hpre, layerBelow_map_key]
        conv => lhs; rw [ho]
        apply List.map_congr_left
        intro k hk
        rw [layerBelow_succ_of_not]
        rw [hat, decide_eq_false_iff_not]
        rintro ⟨_, rfl⟩
        rw [List.nodup_append] at hnd
        exact hnd.2.2 _ hk _ (by simp) rfl
      · rw [layerBelow_succ_of (by rw [hat]; simp [hne]), hseg]; rfl

/-! ## the codes are acceptable if the function returns -/

theorem layerNew_codes {k o q l} (h : AhbLocationLayer.new k o q = .ok l) : optMatches openingQualifierRe q = true := by
  unfold AhbLocationLayer.new at h
  split at h
  · cases h
  · split at h
    · cases h
    · split at h
      · cases h
      · split at h
        · cases h
        · next hq => simpa using hq

theorem appendLocation_codes {st line seg layers st'} (h : appendLocation st line seg layers = .ok st') :
    optMatches segmentCode3Re seg = true ∧ optMatches dataElement4Re line.dataElement = true := by
  simp only [appendLocation, bind, Except.bind] at h
  split at h
  · cases h
  · next l hl =>
    unfold AhbLocation.new at hl
    split at hl
    · cases hl
    · split at hl
      · cases hl
      · next h1 =>
        split at hl
        · cases hl
        · next h2 => exact ⟨by simpa using h1, by simpa using h2⟩

theorem initialLayers_codes {sgh st qual r} (hinv : st.Ok sgh) (hr : st.result = [])
    (h : initialLayers sgh st qual = .ok r) : optMatches openingQualifierRe qual = true := by
  unfold initialLayers at h
  rw [hinv.1 hr, hr] at h
  simp only [pyLast, List.getLast?_singleton, bind, Except.bind, List.length_nil, and_self, if_true] at h
  split at h
  · cases h
  · next l hl => exact layerNew_codes hl

theorem locStep_codes {sgh st line c seg qual st'} (hinv : st.Ok sgh) (hc : c ≠ .moveToNeighbourDifferentKey)
    (h : locStep sgh st ((line, c), seg, qual) = .ok st') :
    optMatches segmentCode3Re seg = true ∧ optMatches dataElement4Re line.dataElement = true ∧
    (st.result = [] → optMatches openingQualifierRe qual = true) ∧
    (c ≠ .stay → optMatches openingQualifierRe qual = true) := by
  simp only [locStep, bind, Except.bind] at h
  split at h
  · cases h
  · next base hbase =>
    have h0 : st.result = [] → optMatches openingQualifierRe qual = true := fun hr => initialLayers_codes hinv hr hbase
    cases c with
    | stay =>
      obtain ⟨h1, h2⟩ := appendLocation_codes h
      exact ⟨h1, h2, h0, fun hc => absurd rfl hc⟩
    | moveToNeighbourSameKey =>
      simp only at h
      split at h
      · cases h
      · split at h
        · cases h
        · next nl hnl =>
          obtain ⟨h1, h2⟩ := appendLocation_codes h
          exact ⟨h1, h2, h0, fun _ => layerNew_codes hnl⟩
    | diveIntoSubGroup =>
      simp only at h
      split at h
      · cases h
      · next nl hnl =>
        obtain ⟨h1, h2⟩ := appendLocation_codes h
        exact ⟨h1, h2, h0, fun _ => layerNew_codes hnl⟩
    | leaveToParent => cases h
    | moveToNeighbourDifferentKey => exact absurd rfl hc
    | leaveToParentAndDive =>
      simp only at h
      split at h
      · cases h
      · split at h
        · cases h
        · split at h
          · cases h
          · split at h
            · cases h
            · split at h
              · cases h
              · split at h
                · cases h
                · next nl hnl =>
                  obtain ⟨h1, h2⟩ := appendLocation_codes h
                  exact ⟨h1, h2, h0, fun _ => layerNew_codes hnl⟩

/-- whatever the hierarchy: if `determine_locations` returns, the codes are acceptable -/
theorem determineLocations_codes {sgh : Sgh} {lines : List AhbLine} {res : List (AhbLine × AhbLocation)}
    (h : determineLocations sgh lines = .ok res) {changes : List (AhbLine × Change)}
    (hch : determineHierarchyChanges lines sgh = .ok changes) : CodesFit lines changes := by
  obtain ⟨_, htr⟩ := determineLocations_trace h
  rw [changes_eq] at hch
  cases hch
  rw [determineLocations_eq] at h
  simp only [bind, Except.bind] at h
  split at h
  · cases h
  · next start hstart =>
    obtain ⟨o, ho, rfl⟩ := layerNew_ok hstart
    cases ho
    split at h
    · cases h
    · next st hst =>
      cases h
      obtain ⟨ss, h0, hend, hstep⟩ := foldlM_ok _ _ _ _ hst
      have inv : ∀ n, n ≤ lines.length → (ss n).Ok sgh := by
        intro n
        induction n with
        | zero => intro _; rw [h0]; exact ⟨fun _ => rfl, by simp⟩
        | succ n ih =>
          intro hn
          have hl : lines[n]? = some lines[n] := List.getElem?_eq_getElem (by omega)
          have hs := hstep n _ (by rw [locItems_getElem?, hl]; rfl)
          exact (locStep_ok (ih (by omega)) (changeAt_ne sgh lines n _ hl).1 hs).1
      have all : ∀ n line, lines[n]? = some line →
          optMatches segmentCode3Re (nextSegmentAt lines n) = true ∧ optMatches dataElement4Re line.dataElement = true ∧
          ((ss n).result = [] → optMatches openingQualifierRe (nextQualifierAt lines n) = true) ∧
          (changeAt sgh lines n line ≠ .stay → optMatches openingQualifierRe (nextQualifierAt lines n) = true) := by
        intro n line hl
        have hs := hstep n _ (by rw [locItems_getElem?, hl]; rfl)
        exact locStep_codes (inv n (Nat.le_of_lt (List.getElem?_eq_some_iff.1 hl).1)) (changeAt_ne sgh lines n _ hl).1 hs
      refine ⟨?_, ?_, ?_⟩
      · intro line hm
        obtain ⟨n, hn, rfl⟩ := List.getElem_of_mem hm
        have hl : lines[n]? = some lines[n] := List.getElem?_eq_getElem hn
        obtain ⟨a1, a2, _⟩ := all n _ hl
        refine ⟨?_, (optMatches_iff dataElement4Re_iff _).1 a2⟩
        intro c hc
        refine (optMatches_iff segmentCode3Re_iff _).1 a1 c ?_
        unfold nextSegmentAt
        rw [List.drop_eq_getElem_cons hn, List.findSome?_cons, hc]
      · intro n line c hc hne
        rw [changes_getElem?] at hc
        cases hl : lines[n]? with
        | none => rw [hl] at hc; cases hc
        | some l =>
          rw [hl] at hc
          cases hc
          refine ⟨?_, (optMatches_iff openingQualifierRe_iff _).1 ((all n line hl).2.2.2 hne)⟩
          obtain ⟨layers, _, _, h3⟩ := htr n line hl
          rcases h3 with ⟨hs, _⟩ | ⟨_, _, o, hseg, _⟩
          · exact absurd hs hne
          · rw [hseg]; simp
      · intro q hq
        cases hl : lines[0]? with
        | none =>
          obtain rfl : lines = [] := by simpa using hl
          cases hq
        | some l =>
          exact (optMatches_iff openingQualifierRe_iff _).1 ((all 0 l hl).2.2.1 (by rw [h0])) q hq

end Verif
