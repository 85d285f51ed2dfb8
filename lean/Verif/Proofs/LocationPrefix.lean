import Verif.Proofs.DetermineLocations
/-! `determine_locations` looks ahead to the next segment code and value pool entry only -/

namespace Verif

theorem lookAhead_take {sel : AhbLine → Option PyStr} {q q' : List AhbLine} (h : q.findSome? sel = q'.findSome? sel) (p : List AhbLine) :
    (lookAhead sel (p ++ q)).take p.length = (lookAhead sel (p ++ q')).take p.length := by
  induction p with
  | nil => rfl
  | cons x p ih =>
    rw [List.cons_append, List.cons_append, lookAhead, lookAhead, List.length_cons, List.take_succ_cons, List.take_succ_cons, ih,
      ← List.cons_append, ← List.cons_append, List.findSome?_append, List.findSome?_append, h]

theorem zip3_take {α β γ : Type} (as : List α) : ∀ (bs : List β) (cs : List γ) (n : Nat),
    (zip3 as bs cs).take n = zip3 (as.take n) (bs.take n) (cs.take n) := by
  induction as with
  | nil => intro bs cs n; simp [zip3]
  | cons a as ih =>
    intro bs cs n
    cases n with
    | zero => simp [zip3]
    | succ n =>
      cases bs with
      | nil => simp [zip3]
      | cons b bs =>
        cases cs with
        | nil => simp [zip3]
        | cons c cs => simp [zip3, ih]

theorem changesLoop_take (sgh : Sgh) (xs : List (AhbLine × Option PyStr × Option PyStr)) : ∀ (st : ChangeState) (n : Nat),
    (changesLoop sgh st xs).take n = changesLoop sgh st (xs.take n) := by
  induction xs with
  | nil => intro st n; simp [changesLoop]
  | cons x xs ih =>
    intro st n
    obtain ⟨line, seg, qual⟩ := x
    cases n with
    | zero => simp [changesLoop]
    | succ n =>
      rw [changesLoop, List.take_succ_cons, List.take_succ_cons, changesLoop, ih]

theorem locItems_take (sgh : Sgh) {p q q' : List AhbLine} (hs : nextSegmentAt q 0 = nextSegmentAt q' 0)
    (hq : nextQualifierAt q 0 = nextQualifierAt q' 0) :
    (locItems sgh (p ++ q)).take p.length = (locItems sgh (p ++ q')).take p.length := by
  have h1 := lookAhead_take (sel := AhbLine.segmentCode) (q := q) (q' := q') hs p
  have h2 := lookAhead_take (sel := AhbLine.valuePoolEntry) (q := q) (q' := q') hq p
  unfold locItems items
  rw [zip3_take, zip3_take, changesLoop_take, changesLoop_take, zip3_take, zip3_take, h1, h2]
  simp

theorem lookAhead_take_of_written {sel : AhbLine → Option PyStr} {line : AhbLine} (h : sel line ≠ none) (p q : List AhbLine) :
    (lookAhead sel ((p ++ [line]) ++ q)).take (p ++ [line]).length = lookAhead sel (p ++ [line]) := by
  obtain ⟨v, hv⟩ := Option.ne_none_iff_exists'.1 h
  induction p with
  | nil => simp [lookAhead, hv]
  | cons x p ih =>
    rw [List.cons_append, List.cons_append, lookAhead, lookAhead, List.length_cons, List.take_succ_cons, ih, ← List.cons_append,
      List.findSome?_append]
    have : (x :: (p ++ [line])).findSome? sel ≠ none := by
      rw [Ne, List.findSome?_eq_none_iff]
      intro h'
      exact h (h' line (by simp))
    obtain ⟨w, hw⟩ := Option.ne_none_iff_exists'.1 this
    rw [hw]
    rfl

theorem locItems_take_of_written (sgh : Sgh) {p q : List AhbLine} {line : AhbLine} (hs : line.segmentCode ≠ none)
    (hq : line.valuePoolEntry ≠ none) :
    (locItems sgh ((p ++ [line]) ++ q)).take (p ++ [line]).length = locItems sgh (p ++ [line]) := by
  unfold locItems items
  rw [zip3_take, changesLoop_take, zip3_take, lookAhead_take_of_written hs, lookAhead_take_of_written hq, List.take_left]

theorem locStep_extends {sgh : Sgh} {st st' : LocState} {item : (AhbLine × Change) × Option PyStr × Option PyStr}
    (h : locStep sgh st item = .ok st') : st.result <+: st'.result ∧ st'.result.length ≤ st.result.length + 1 := by
  obtain ⟨⟨line, change⟩, seg, qual⟩ := item
  have key : ∀ layers, appendLocation st line seg layers = .ok st' →
      st.result <+: st'.result ∧ st'.result.length ≤ st.result.length + 1 := by
    intro layers h
    rw [(appendLocation_ok h).2.2]
    exact ⟨List.prefix_append .., by simp⟩
  unfold locStep at h
  simp only [bind, Except.bind] at h
  split at h
  · cases h
  · cases change <;> simp only at h <;> repeat' (first | exact key _ h | (cases h; done) | split at h)
    cases h
    exact ⟨List.prefix_rfl, Nat.le_succ _⟩

theorem foldl_extends {sgh : Sgh} (l : List ((AhbLine × Change) × Option PyStr × Option PyStr)) : ∀ {st st' : LocState},
    l.foldlM (locStep sgh) st = .ok st' → st.result <+: st'.result ∧ st'.result.length ≤ st.result.length + l.length := by
  induction l with
  | nil =>
    intro st st' h
    cases h
    exact ⟨List.prefix_rfl, Nat.le_refl _⟩
  | cons a l ih =>
    intro st st' h
    rw [List.foldlM_cons] at h
    cases h1 : locStep sgh st a with
    | error e => rw [h1] at h; cases h
    | ok st1 =>
      rw [h1] at h
      have i := locStep_extends h1
      have j := ih h
      refine ⟨i.1.trans j.1, ?_⟩
      simp only [List.length_cons]
      omega

/-- the run over the first lines, as the first part of the whole run -/
theorem initialLayers_ne {sgh : Sgh} {st : LocState} {q : Option PyStr} {layers : List AhbLocationLayer}
    (h : initialLayers sgh st q = .ok layers) : layers ≠ [] := by
  unfold initialLayers pyLast at h
  cases hl : st.layers.getLast? with
  | none => rw [hl] at h; cases h
  | some l =>
    rw [hl] at h
    simp only [bind, Except.bind] at h
    split at h
    · cases hn : AhbLocationLayer.new sgh.segmentGroup (some sgh.openingSegment) q with
      | error e => rw [hn] at h; cases h
      | ok n => rw [hn] at h; cases h; simp
    · cases h
      intro h0
      rw [h0] at hl
      cases hl

theorem appendLocation_layers {st st' : LocState} {line : AhbLine} {seg : Option PyStr} {layers : List AhbLocationLayer}
    (h : appendLocation st line seg layers = .ok st') : st'.layers = layers := by
  unfold appendLocation at h
  cases hn : AhbLocation.new layers seg line.dataElement line.valuePoolEntry with
  | error e => rw [hn] at h; cases h
  | ok n => rw [hn] at h; cases h; rfl

theorem locStep_layers_ne {sgh : Sgh} {st st' : LocState} {item : (AhbLine × Change) × Option PyStr × Option PyStr}
    (h : locStep sgh st item = .ok st') : st'.layers ≠ [] := by
  obtain ⟨⟨line, change⟩, seg, qual⟩ := item
  unfold locStep at h
  simp only [bind, Except.bind] at h
  split at h
  · cases h
  · next layers hl =>
    have hne := initialLayers_ne hl
    cases change <;> simp only at h
    all_goals (repeat' (split at h))
    all_goals first
      | (cases h; done)
      | (rw [appendLocation_layers h]; first | exact hne | simp; done)
      | (cases h; exact hne)

theorem foldl_layers {sgh : Sgh} (l : List ((AhbLine × Change) × Option PyStr × Option PyStr)) : ∀ {st st' : LocState},
    st.layers ≠ [] → l.foldlM (locStep sgh) st = .ok st' → ∃ x, st'.layers.getLast? = some x := by
  induction l with
  | nil =>
    intro st st' hne h
    cases h
    exact ⟨_, List.getLast?_eq_some_getLast hne⟩
  | cons a l ih =>
    intro st st' hne h
    rw [List.foldlM_cons] at h
    cases h1 : locStep sgh st a with
    | error e => rw [h1] at h; cases h
    | ok st1 =>
      rw [h1] at h
      exact ih (locStep_layers_ne h1) h

theorem determineLocations_prefix {sgh : Sgh} {p q : List AhbLine} {r : List (AhbLine × AhbLocation)}
    (h : determineLocations sgh (p ++ q) = .ok r) :
    ∃ start st, AhbLocationLayer.new sgh.segmentGroup (some sgh.openingSegment) none = .ok start ∧
      ((locItems sgh (p ++ q)).take p.length).foldlM (locStep sgh) { layers := [start], result := [] } = .ok st ∧
      st.result = r.take p.length := by
  have hlen := (determineLocations_trace h).1
  rw [determineLocations_eq] at h
  cases h1 : AhbLocationLayer.new sgh.segmentGroup (some sgh.openingSegment) none with
  | error e => rw [h1] at h; cases h
  | ok start =>
    rw [h1] at h
    refine ⟨start, ?_⟩
    simp only [bind, Except.bind] at h
    rw [← List.take_append_drop p.length (locItems sgh (p ++ q)), List.foldlM_append] at h
    cases h2 : ((locItems sgh (p ++ q)).take p.length).foldlM (locStep sgh) { layers := [start], result := [] } with
    | error e => rw [h2] at h; cases h
    | ok st =>
      refine ⟨st, rfl, rfl, ?_⟩
      rw [h2] at h
      simp only [bind, Except.bind] at h
      cases h3 : ((locItems sgh (p ++ q)).drop p.length).foldlM (locStep sgh) st with
      | error e => rw [h3] at h; cases h
      | ok st' =>
        rw [h3] at h
        cases h
        have i := foldl_extends _ h2
        have j := foldl_extends _ h3
        simp only [List.length_take, List.length_drop, locItems_length, List.length_append, List.length_nil] at i j hlen
        have e : st.result.length = p.length := by omega
        rw [← e]
        exact List.prefix_iff_eq_take.1 j.1

end Verif
