import Verif.Proofs.SghPath
import Verif.Proofs.Codes
/-! `determine_locations` follows the hierarchy and makes progress -/

namespace Verif

theorem stepLayers_path {s : Sgh} (hd : s.KeysDistinct) {lines : List AhbLine} {n : Nat} {line : AhbLine}
    (hline : lines[n]? = some line) {a : List Nat} (ha : s.keyAt? a = some (previousKeyAt lines n))
    {base layers : List AhbLocationLayer} {seg qual}
    (hbase : base.map (·.segmentGroupKey) = s.pathKeys a)
    (hopen : ParentIsOpen s (previousKeyAt lines n) line.segmentGroupKey)
    (hstep : StepLayers s base line (changeAt s lines n line) seg qual layers) :
    ∃ b, s.keyAt? b = some line.segmentGroupKey ∧ layers.map (·.segmentGroupKey) = s.pathKeys b := by
  obtain ⟨c1, c2⟩ := changeAt_sound s lines n line hline
  have sa := Sgh.isSome_of_keyAt ha
  by_cases hk : line.segmentGroupKey = previousKeyAt lines n
  · refine ⟨a, by rw [hk, ha], ?_⟩
    rcases hstep with ⟨_, rfl⟩ | ⟨hne, outer, o, _, rfl, _, _, hmove, _⟩
    · exact hbase
    · rcases c1 hk with hc | hc
      · exact absurd hc hne
      · rw [hmove hc, List.map_append, List.map_dropLast, hbase]
        have := Sgh.pathKeys_concat ha
        rw [hk, List.map_singleton]
        conv => rhs; rw [this]
        rw [List.dropLast_eq_take, Sgh.pathKeys_length sa]; simp
  · have hc := c2 hk
    rcases hopen with h | ⟨a', b, ha', hb, hpre⟩
    · exact absurd h hk
    obtain rfl := hd.keyAt_inj ha ha'
    refine ⟨b, hb, ?_⟩
    have sb := Sgh.isSome_of_keyAt hb
    rcases hstep with ⟨hc', rfl⟩ | ⟨hne, outer, o, _, rfl, _, hdive, _, hleave⟩
    · rw [hc'] at hc; split at hc <;> cases hc
    · rw [Sgh.pathKeys_concat hb, List.map_append, List.map_singleton]
      congr 1
      by_cases hbelow : s.sgIsHierarchicallyBelow line.segmentGroupKey (previousKeyAt lines n) = true
      · rw [if_pos hbelow] at hc
        obtain ⟨_, a', b', hb', h1, h2⟩ := (Sgh.sgBelow_addr _ _ _).1 hbelow
        obtain rfl := hd.keyAt_inj ha h1
        obtain rfl := hd.keyAt_inj hb h2
        have hlen : b'.length = 1 := by
          have h3 := hpre.length_le
          have h4 : b'.length ≠ 0 := by simpa using hb'
          rw [List.length_dropLast, List.length_append] at h3; omega
        rw [hdive hc, hbase, List.length_append, hlen, Sgh.pathKeys_take sb]; simp
      · rw [if_neg hbelow] at hc
        obtain ⟨_, x, l, ca, d, hxl, hxp, hl, hca, hdist, hpops⟩ := hleave hc
        have hlk : l.segmentGroupKey = previousKeyAt lines n := by
          have h1 := Sgh.pathKeys_last ha
          rw [← hbase, List.getLast?_map, hl] at h1
          exact Option.some.inj h1
        rw [hlk] at hca
        obtain ⟨p1, p2⟩ := findCommonAncestorFromSgh_spec hd ha hb hca
        have hnb : ¬ a <+: b := by
          intro hp
          obtain ⟨t, rfl⟩ := hp
          by_cases ht : t = []
          · subst ht
            rw [List.append_nil, ha] at hb
            exact hk (Option.some.inj hb).symm
          · exact hbelow ((Sgh.sgBelow_addr _ _ _).2 ⟨hk, a, t, ht, ha, hb⟩)
        subst hxl
        obtain ⟨d', hd', hpops'⟩ := leave_layers hd ha hb hpre hnb hbase p2 p1
        rw [hdist] at hd'
        cases hd'
        rw [hpops] at hpops'
        cases hpops'
        rw [List.map_take, hbase]
        by_cases hbn : b = []
        · simp [hbn]
        · have hbl : b.length = (b.length - 1) + 1 := by
            have : b.length ≠ 0 := by simpa using hbn
            omega
          rw [hbl, Sgh.pathKeys_take sa, Sgh.pathKeys_take sb]
          have h5 := List.prefix_iff_eq_take.1 hpre
          rw [List.length_dropLast] at h5
          rw [← h5, List.dropLast_eq_take]

theorem baseLayers_keys {s : Sgh} {st : LocState} (h : st.Ok s) (q : Option PyStr) :
    (baseLayers s st q).map (·.segmentGroupKey) = st.layers.map (·.segmentGroupKey) := by
  unfold baseLayers
  split
  · next hr => simp [h.1 hr]
  · rfl

theorem foldlM_progress {σ α : Type} (f : σ → α → PyRes σ) (Inv : Nat → σ → Prop) (xs : List α) (s : σ) (h0 : Inv 0 s)
    (hstep : ∀ n x s, xs[n]? = some x → Inv n s → ∃ s', f s x = .ok s' ∧ Inv (n + 1) s') :
    ∃ t, xs.foldlM f s = .ok t := by
  induction xs generalizing s Inv with
  | nil => exact ⟨s, rfl⟩
  | cons x xs ih =>
    obtain ⟨s', h1, h2⟩ := hstep 0 x s rfl h0
    simp only [List.foldlM_cons, h1, bind, Except.bind]
    exact ih (fun n => Inv (n + 1)) s' h2 fun n y s hy hi => hstep (n + 1) y s (by simpa using hy) hi

/-- an error of the loop is an error of a step -/
theorem foldlM_error {σ α : Type} (f : σ → α → PyRes σ) (xs : List α) (s : σ) (e : Exc)
    (h : xs.foldlM f s = .error e) : ∃ x ∈ xs, ∃ s, f s x = .error e := by
  induction xs generalizing s with
  | nil => cases h
  | cons x xs ih =>
    simp only [List.foldlM_cons, bind, Except.bind] at h
    split at h
    · next e' he' => cases h; exact ⟨x, by simp, s, he'⟩
    · next s' _ =>
      obtain ⟨y, hy, hs⟩ := ih s' h
      exact ⟨y, by simp [hy], hs⟩

theorem appendLocation_valid {st line seg layers} (h0 : layers ≠ []) (h1 : optMatches segmentCode3Re seg = true)
    (h2 : optMatches dataElement4Re line.dataElement = true) : ∃ st', appendLocation st line seg layers = .ok st' := by
  unfold appendLocation
  rw [locationNew_of_valid h0 h1 h2]
  exact ⟨_, rfl⟩

theorem initialLayers_valid {s : Sgh} (hv : s.LayersValid) {st : LocState} (hinv : st.Ok s) {qual}
    (hq : st.result = [] → optMatches openingQualifierRe qual = true) (hne : st.layers ≠ []) :
    initialLayers s st qual = .ok (baseLayers s st qual) := by
  obtain ⟨v1, v2⟩ := hv [] s rfl
  have : ∃ r, initialLayers s st qual = .ok r := by
    unfold initialLayers
    cases hl : st.layers.getLast? with
    | none => exact absurd (List.getLast?_eq_none_iff.1 hl) hne
    | some l =>
      simp only [pyLast, hl, bind, Except.bind]
      split
      · next h =>
        rw [layerNew_of_valid v1 v2 (hq (List.length_eq_zero_iff.1 h.2))]
        exact ⟨_, rfl⟩
      · exact ⟨_, rfl⟩
  obtain ⟨r, hr⟩ := this
  rw [hr, initialLayers_ok hinv hr]

/-- one step succeeds -/
theorem locStep_progress {s : Sgh} (hd : s.KeysDistinct) (hv : s.LayersValid) {lines : List AhbLine} {n : Nat}
    {line : AhbLine} (hline : lines[n]? = some line) {a : List Nat} (ha : s.keyAt? a = some (previousKeyAt lines n))
    {st : LocState} (hinv : st.Ok s) (hn : n = 0 → s.segmentGroup = none)
    (hres : st.result = [] ↔ n = 0) (hkeys : st.layers.map (·.segmentGroupKey) = s.pathKeys a)
    (hopen : ParentIsOpen s (previousKeyAt lines n) line.segmentGroupKey) {seg qual : Option PyStr}
    (hseg : optMatches segmentCode3Re seg = true) (hde : optMatches dataElement4Re line.dataElement = true)
    (hqual : (n = 0 ∨ changeAt s lines n line ≠ .stay) → optMatches openingQualifierRe qual = true)
    (hsome : changeAt s lines n line ≠ .stay → seg ≠ none) :
    ∃ st', locStep s st ((line, changeAt s lines n line), seg, qual) = .ok st' := by
  have hne : st.layers ≠ [] := by
    intro h; rw [h] at hkeys; exact Sgh.pathKeys_ne_nil s a hkeys.symm
  have hbk := baseLayers_keys hinv qual
  have hbne : baseLayers s st qual ≠ [] := by
    intro h; rw [h, hkeys] at hbk; exact Sgh.pathKeys_ne_nil s a hbk.symm
  simp only [locStep, initialLayers_valid hv hinv (fun h => hqual (Or.inl (hres.1 h))) hne, bind, Except.bind]
  obtain ⟨c1, c2⟩ := changeAt_sound s lines n line hline
  have hkb : ∃ b, s.keyAt? b = some line.segmentGroupKey := by
    rcases hopen with h | ⟨_, b, _, hb, _⟩
    · exact ⟨a, by rw [h, ha]⟩
    · exact ⟨b, hb⟩
  obtain ⟨b, hb⟩ := hkb
  have hbv : optMatches sgKeyRe line.segmentGroupKey = true := by
    obtain ⟨g, hg, hgk⟩ := Sgh.keyAt?_some.1 hb
    rw [← hgk]; exact (hv b g hg).1
  have hlayer : changeAt s lines n line ≠ .stay → ∃ o, AhbLocationLayer.new line.segmentGroupKey seg qual =
      .ok ⟨line.segmentGroupKey, o, qual⟩ := by
    intro hc
    cases seg with
    | none => exact absurd rfl (hsome hc)
    | some o => exact ⟨o, layerNew_of_valid hbv (by simpa [optMatches] using hseg) (hqual (Or.inr hc))⟩
  obtain ⟨n1, n2⟩ := changeAt_ne s lines n line hline
  cases hc : changeAt s lines n line with
  | stay => exact appendLocation_valid hbne hseg hde
  | moveToNeighbourSameKey =>
    obtain ⟨o, ho⟩ := hlayer (by simp [hc])
    have hp : pyPop (baseLayers s st qual) = .ok (baseLayers s st qual).dropLast := by
      cases h : baseLayers s st qual with
      | nil => exact absurd h hbne
      | cons x l => rfl
    simp only [hp, ho]
    exact appendLocation_valid (by simp) hseg hde
  | diveIntoSubGroup =>
    obtain ⟨o, ho⟩ := hlayer (by simp [hc])
    simp only [ho]
    exact appendLocation_valid (by simp) hseg hde
  | moveToNeighbourDifferentKey => exact absurd hc n1
  | leaveToParent => exact absurd hc n2
  | leaveToParentAndDive =>
    obtain ⟨o, ho⟩ := hlayer (by simp [hc])
    simp only
    have hk : line.segmentGroupKey ≠ previousKeyAt lines n := by
      intro hk
      rcases c1 hk with h | h <;> rw [hc] at h <;> cases h
    have hbelow : ¬ s.sgIsHierarchicallyBelow line.segmentGroupKey (previousKeyAt lines n) = true := by
      intro h
      have := c2 hk
      rw [if_pos h, hc] at this; cases this
    obtain ⟨a', b', ha', hb', hpre⟩ : ∃ a b, s.keyAt? a = some (previousKeyAt lines n) ∧
        s.keyAt? b = some line.segmentGroupKey ∧ b.dropLast <+: a := by
      rcases hopen with h | h
      · exact absurd h hk
      · exact h
    obtain rfl := hd.keyAt_inj ha ha'
    obtain rfl := hd.keyAt_inj hb hb'
    have hnb : ¬ a <+: b := by
      rintro ⟨t, rfl⟩
      by_cases ht : t = []
      · subst ht
        rw [List.append_nil, ha] at hb
        exact hk (Option.some.inj hb).symm
      · exact hbelow ((Sgh.sgBelow_addr _ _ _).2 ⟨hk, a, t, ht, ha, hb⟩)
    have hn0 : n ≠ 0 := by
      intro h0
      have hroot := hn h0
      subst h0
      have ha0 : a = [] := hd.keyAt_inj ha (by simp [Sgh.keyAt?, hroot, previousKeyAt])
      rw [ha0] at hnb
      exact hnb List.nil_prefix
    have hrne : st.result ≠ [] := fun h => hn0 (hres.1 h)
    have hbl : baseLayers s st qual = st.layers := by simp [baseLayers, hrne]
    cases hlr : st.result.getLast? with
    | none => exact absurd (List.getLast?_eq_none_iff.1 hlr) hrne
    | some lr =>
      obtain ⟨e1, e2, e3⟩ := hinv.2 lr hlr
      have hkeys' : lr.2.layers.map (·.segmentGroupKey) = s.pathKeys a := by rw [e1, hkeys]
      cases hll : lr.2.layers.getLast? with
      | none => exact absurd (e1 ▸ List.getLast?_eq_none_iff.1 hll) e2
      | some ll =>
        have hlk : ll.segmentGroupKey = previousKeyAt lines n := by
          have h1 := Sgh.pathKeys_last ha
          rw [← hkeys', List.getLast?_map, hll] at h1
          exact Option.some.inj h1
        obtain ⟨ca, hca⟩ := findCommonAncestorFromSgh_ok hv ha hb
        obtain ⟨p1, p2⟩ := findCommonAncestorFromSgh_spec hd ha hb hca
        obtain ⟨d, hdist, hpops⟩ := leave_layers hd ha hb hpre hnb hkeys' p2 p1
        rw [hbl, ← e1]
        simp only [pyLast, hlr, hll, hlk, hca, hdist, hpops, ho]
        exact appendLocation_valid (by simp) hseg hde

/-! ## errors of the single operations -/

theorem layerNew_error {k o q e} (h : AhbLocationLayer.new k o q = .error e) : e = .valueError ∨ e = .typeError := by
  unfold AhbLocationLayer.new at h
  split at h
  · cases h; simp
  · split at h
    · cases h; simp
    · split at h
      · cases h; simp
      · split at h
        · cases h; simp
        · cases h

theorem locationNew_error {layers sc de q p e} (h : AhbLocation.new layers sc de q p = .error e) : e = .valueError := by
  unfold AhbLocation.new at h
  repeat' split at h
  all_goals first | (cases h; rfl) | cases h

theorem pyLast_error {α : Type} {l : List α} {e} (h : pyLast l = .error e) : e = .valueError := by
  unfold pyLast at h
  split at h <;> cases h; rfl

theorem pyPop_error {α : Type} {l : List α} {e} (h : pyPop l = .error e) : e = .indexError := by
  unfold pyPop at h
  split at h <;> cases h; rfl

theorem leavePops_error {k n l e} (h : leavePops k n l = .error e) : e = .indexError ∨ e = .valueError := by
  induction n generalizing l with
  | zero => cases h
  | succ n ih =>
    simp only [leavePops, bind, Except.bind] at h
    split at h
    · next h1 => cases h; exact Or.inl (pyPop_error h1)
    · split at h
      · next h1 => cases h; exact Or.inr (pyLast_error h1)
      · split at h
        · split at h
          · next h1 => cases h; exact Or.inl (pyPop_error h1)
          · exact ih h
        · exact ih h

theorem findCommonAncestor_error {x y e} (h : findCommonAncestor x y = .error e) : e = .valueError :=
  locationNew_error h

theorem calculateDistance_error {x y e} (h : calculateDistance x y = .error e) : e = .valueError := by
  simp only [calculateDistance, bind, Except.bind] at h
  split at h
  · next h1 => cases h; exact findCommonAncestor_error h1
  · unfold AhbLocationDistance.new at h
    split at h <;> cases h; rfl

theorem constructPseudoLocation_error {k s ex e} (h : constructPseudoLocation k s ex = .error e) :
    e = .valueError ∨ e = .typeError := by
  induction s using Sgh.induct generalizing ex with
  | h s ih =>
    rw [constructPseudoLocation_eq] at h
    simp only [bind, Except.bind] at h
    split at h
    · next h1 => cases h; exact layerNew_error h1
    · split at h
      · split at h
        · next h1 => cases h; exact Or.inl (locationNew_error h1)
        · cases h
      · have loop : ∀ (l : List Sgh) (ex : List AhbLocationLayer), (∀ c ∈ l, c ∈ s.children) →
            constructPseudoLocationList k l ex = .error e → e = .valueError ∨ e = .typeError := by
          intro l ex
          induction l with
          | nil => intro _ h; cases h
          | cons c l ihl =>
            intro hm h
            simp only [constructPseudoLocationList, bind, Except.bind] at h
            split at h
            · next h1 => cases h; exact ih c (hm c (by simp)) h1
            · split at h
              · cases h
              · exact ihl (fun c hc => hm c (by simp [hc])) h
        exact loop _ _ (fun c hc => hc) h

theorem findCommonAncestorFromSgh_error {x y s e} (h : findCommonAncestorFromSgh x y s = .error e) :
    e = .valueError ∨ e = .typeError ∨ e = .attributeError := by
  simp only [findCommonAncestorFromSgh, bind, Except.bind] at h
  split at h
  · next h1 => cases h; rcases constructPseudoLocation_error h1 with h | h <;> simp [h]
  · split at h
    · cases h; simp
    · split at h
      · next h1 => cases h; rcases constructPseudoLocation_error h1 with h | h <;> simp [h]
      · split at h
        · cases h; simp
        · simp [findCommonAncestor_error h]

theorem appendLocation_error {st line seg layers e} (h : appendLocation st line seg layers = .error e) :
    e = .valueError := by
  simp only [appendLocation, bind, Except.bind] at h
  split at h
  · next h1 => cases h; exact locationNew_error h1
  · cases h

theorem initialLayers_error {s st q e} (h : initialLayers s st q = .error e) : e = .valueError ∨ e = .typeError := by
  simp only [initialLayers, bind, Except.bind] at h
  split at h
  · next h1 => cases h; exact Or.inl (pyLast_error h1)
  · split at h
    · split at h
      · next h1 => cases h; exact layerNew_error h1
      · cases h
    · cases h

/-- the documented failures of `determine_locations` -/
def LocError (e : Exc) : Prop := e = .valueError ∨ e = .typeError ∨ e = .indexError ∨ e = .attributeError

theorem locStep_error {s st line c seg qual e} (hc : c ≠ .leaveToParent)
    (h : locStep s st ((line, c), seg, qual) = .error e) : LocError e := by
  unfold LocError
  simp only [locStep, bind, Except.bind] at h
  split at h
  · next h1 => cases h; rcases initialLayers_error h1 with h | h <;> simp [h]
  · cases c with
    | stay => simp [appendLocation_error h]
    | moveToNeighbourSameKey =>
      simp only at h
      split at h
      · next h1 => cases h; simp [pyPop_error h1]
      · split at h
        · next h1 => cases h; rcases layerNew_error h1 with h | h <;> simp [h]
        · simp [appendLocation_error h]
    | diveIntoSubGroup =>
      simp only at h
      split at h
      · next h1 => cases h; rcases layerNew_error h1 with h | h <;> simp [h]
      · simp [appendLocation_error h]
    | moveToNeighbourDifferentKey => cases h
    | leaveToParent => exact absurd rfl hc
    | leaveToParentAndDive =>
      simp only at h
      split at h
      · next h1 => cases h; simp [pyLast_error h1]
      · split at h
        · next h1 => cases h; simp [pyLast_error h1]
        · split at h
          · next h1 => cases h; rcases findCommonAncestorFromSgh_error h1 with h | h | h <;> simp [h]
          · split at h
            · next h1 => cases h; simp [calculateDistance_error h1]
            · split at h
              · next h1 => cases h; rcases leavePops_error h1 with h | h <;> simp [h]
              · split at h
                · next h1 => cases h; rcases layerNew_error h1 with h | h <;> simp [h]
                · simp [appendLocation_error h]

theorem determineLocations_error {s : Sgh} {lines : List AhbLine} {e}
    (h : determineLocations s lines = .error e) : LocError e := by
  rw [determineLocations_eq] at h
  simp only [bind, Except.bind] at h
  split at h
  · next h1 => cases h; rcases layerNew_error h1 with h | h <;> simp [LocError, h]
  · split at h
    · next h1 =>
      cases h
      obtain ⟨x, hx, st, hst⟩ := foldlM_error _ _ _ _ h1
      obtain ⟨n, hn, rfl⟩ := List.mem_iff_getElem.1 hx
      have h2 := locItems_getElem? s lines n
      rw [List.getElem?_eq_getElem hn] at h2
      cases hl : lines[n]? with
      | none => rw [hl] at h2; cases h2
      | some line =>
        rw [hl] at h2
        simp only [Option.map_some, Option.some.injEq] at h2
        rw [h2] at hst
        exact locStep_error (changeAt_ne s lines n line hl).2 hst
    · cases h

end Verif
