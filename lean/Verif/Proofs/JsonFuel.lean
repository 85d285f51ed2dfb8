import Verif.Proofs.JsonText
/-! the bound on the number of nested calls of `jsonLoads` is never reached -/

namespace Verif

theorem skip_length (s : PyStr) : (skipJsonSpace s).length ≤ s.length := (List.dropWhile_suffix _).length_le

theorem scanUnits_length : ∀ {s : PyStr} {l : List Nat} {rest : PyStr}, scanUnits s = .ok (l, rest) → rest.length < s.length := by
  have hcons : ∀ {n : Nat} {r : PyRes (List Nat × PyStr)} {l : List Nat} {rest : PyStr}, consUnit n r = .ok (l, rest) → ∃ l', r = .ok (l', rest) := by
    intro n r l rest h
    unfold consUnit at h
    split at h
    · injection h with h; injection h with _ h; subst h; exact ⟨_, rfl⟩
    · cases h
  intro s
  fun_induction scanUnits s with
  | case1 => intro l rest h; cases h
  | case2 => intro l rest h; cases h; simp
  | case3 a b c d rest' n hn ih =>
    intro l rest h
    obtain ⟨l', h'⟩ := hcons h
    have := ih h'
    simp only [List.length_cons]; omega
  | case4 => intro l rest h; cases h
  | case5 c rest' _ n hn ih =>
    intro l rest h
    obtain ⟨l', h'⟩ := hcons h
    have := ih h'
    simp only [List.length_cons]; omega
  | case6 => intro l rest h; cases h
  | case7 => intro l rest h; cases h
  | case8 c rest' _ _ _ _ ih =>
    intro l rest h
    obtain ⟨l', h'⟩ := hcons h
    have := ih h'
    simp only [List.length_cons]; omega

theorem parseJsonString_length {s t rest : PyStr} (h : parseJsonString s = .ok (t, rest)) : rest.length < s.length := by
  unfold parseJsonString at h
  split at h
  · cases h
  · rename_i h1
    split at h
    · cases h
    · cases h; exact scanUnits_length h1

theorem scanFraction_length (s : PyStr) : (scanFraction s).2.length ≤ s.length := by
  unfold scanFraction
  split
  · rename_i c rest
    split
    · have := (List.dropWhile_suffix isAsciiDigit (l := rest)).length_le
      simp only [List.length_cons]; omega
    · exact Nat.le_refl _
  · exact Nat.le_refl _

theorem exponentDigits_length {b : Bool} {s rest : PyStr} {k : Int} (h : exponentDigits b s = some (k, rest)) : rest.length ≤ s.length := by
  unfold exponentDigits at h
  split at h
  · cases h
  · cases h; exact (List.dropWhile_suffix isAsciiDigit (l := s)).length_le

theorem signedExponent_length {s rest : PyStr} {k : Int} (h : signedExponent s = some (k, rest)) : rest.length ≤ s.length := by
  unfold signedExponent at h
  split at h
  · have := exponentDigits_length h; simp only [List.length_cons]; omega
  · have := exponentDigits_length h; simp only [List.length_cons]; omega
  · exact exponentDigits_length h

theorem scanExponent_length (s : PyStr) : (scanExponent s).2.length ≤ s.length := by
  unfold scanExponent
  split
  · rename_i c s
    split
    · split
      · rename_i h; have := signedExponent_length h; simp only [List.length_cons]; omega
      · exact Nat.le_refl _
    · exact Nat.le_refl _
  · exact Nat.le_refl _

theorem finishNumber_length (b : Bool) (ds s : PyStr) : (finishNumber b ds s).2.length ≤ s.length := by
  unfold finishNumber
  split
  rename_i f r1 h1
  split
  rename_i k r2 h2
  split
  · exact Nat.le_refl _
  · have a := scanFraction_length s
    have b := scanExponent_length r1
    rw [h1] at a; rw [h2] at b
    exact Nat.le_trans b a

theorem parseUnsigned_length {b : Bool} {s rest : PyStr} {j : Json} (h : parseUnsigned b s = .ok (j, rest)) : rest.length < s.length := by
  unfold parseUnsigned at h
  split at h
  · cases h
  · rename_i c r
    have hf : ∀ {d r' : PyStr}, Except.ok (finishNumber b d r') = (.ok (j, rest) : PyRes _) → rest.length ≤ r'.length := by
      intro d r' h
      have := finishNumber_length b d r'
      rw [Except.ok.inj h] at this; exact this
    split at h
    · have := hf h; simp only [List.length_cons]; omega
    · split at h
      · have := hf h
        have := (List.dropWhile_suffix isAsciiDigit (l := r)).length_le
        simp only [List.length_cons]; omega
      · cases h

theorem parseScalar_length {s rest : PyStr} {j : Json} (h : parseScalar s = .ok (j, rest)) : rest.length < s.length := by
  have hpre : ∀ w : PyStr, w ≠ [] → w.isPrefixOf s = true → (s.drop w.length).length < s.length := by
    intro w hw h
    have := (List.isPrefixOf_iff_prefix.1 h).length_le
    have := List.length_pos_iff.2 hw
    rw [List.length_drop]; omega
  unfold parseScalar at h
  split at h
  · rename_i h1; cases h; exact hpre _ (by simp) h1
  split at h
  · rename_i h1; cases h; exact hpre _ (by simp) h1
  split at h
  · rename_i h1; cases h; exact hpre _ (by simp) h1
  split at h
  · rename_i h1; cases h; exact hpre _ (by simp) h1
  split at h
  · rename_i h1; cases h; exact hpre _ (by simp) h1
  split at h
  · rename_i h1; cases h; exact hpre _ (by simp) h1
  split at h
  · have := parseUnsigned_length h; simp only [List.length_cons]; omega
  · exact parseUnsigned_length h

/-- what is true of texts of length `n` -/
structure FuelOk (n : Nat) : Prop where
  value : ∀ s : PyStr, s.length = n → ∀ fuel, 2 * n + 1 ≤ fuel →
    parseJsonValue fuel s = parseJsonValue (2 * n + 1) s ∧ ∀ j rest, parseJsonValue fuel s = .ok (j, rest) → rest.length < n
  items : ∀ s : PyStr, s.length = n → ∀ fuel, 2 * n + 2 ≤ fuel →
    parseJsonItems fuel s = parseJsonItems (2 * n + 2) s ∧ ∀ l rest, parseJsonItems fuel s = .ok (l, rest) → rest.length < n
  members : ∀ s : PyStr, s.length = n → ∀ fuel, 2 * n + 2 ≤ fuel →
    parseJsonMembers fuel s = parseJsonMembers (2 * n + 2) s ∧ ∀ l rest, parseJsonMembers fuel s = .ok (l, rest) → rest.length < n

theorem map_ok {α β : Type} {r : PyRes α} {f : α → β} {b : β} (h : r.map f = .ok b) : ∃ a, r = .ok a ∧ f a = b := by
  cases r with
  | error e => cases h
  | ok a => exact ⟨a, rfl, by injection h⟩

theorem fuelOk (n : Nat) : FuelOk n := by
  induction n using Nat.strongRecOn with
  | _ n ih =>
  have ihv : ∀ s : PyStr, s.length < n → ∀ f g, 2 * s.length + 1 ≤ f → 2 * s.length + 1 ≤ g →
      parseJsonValue f s = parseJsonValue g s ∧ ∀ j rest, parseJsonValue f s = .ok (j, rest) → rest.length < s.length := by
    intro s hs f g hf hg
    have h1 := (ih s.length hs).value s rfl f hf
    have h2 := (ih s.length hs).value s rfl g hg
    exact ⟨h1.1.trans h2.1.symm, h1.2⟩
  have ihi : ∀ s : PyStr, s.length < n → ∀ f g, 2 * s.length + 2 ≤ f → 2 * s.length + 2 ≤ g →
      parseJsonItems f s = parseJsonItems g s ∧ ∀ j rest, parseJsonItems f s = .ok (j, rest) → rest.length < s.length := by
    intro s hs f g hf hg
    have h1 := (ih s.length hs).items s rfl f hf
    have h2 := (ih s.length hs).items s rfl g hg
    exact ⟨h1.1.trans h2.1.symm, h1.2⟩
  have ihm : ∀ s : PyStr, s.length < n → ∀ f g, 2 * s.length + 2 ≤ f → 2 * s.length + 2 ≤ g →
      parseJsonMembers f s = parseJsonMembers g s ∧ ∀ j rest, parseJsonMembers f s = .ok (j, rest) → rest.length < s.length := by
    intro s hs f g hf hg
    have h1 := (ih s.length hs).members s rfl f hf
    have h2 := (ih s.length hs).members s rfl g hg
    exact ⟨h1.1.trans h2.1.symm, h1.2⟩
  have hv : ∀ s : PyStr, s.length = n → ∀ f g, 2 * n + 1 ≤ f → 2 * n + 1 ≤ g →
      parseJsonValue f s = parseJsonValue g s ∧ ∀ j rest, parseJsonValue f s = .ok (j, rest) → rest.length < n := by
    intro s hs f g hf hg
    obtain ⟨f, rfl⟩ : ∃ f', f = f' + 1 := ⟨f - 1, by omega⟩
    obtain ⟨g, rfl⟩ : ∃ f', g = f' + 1 := ⟨g - 1, by omega⟩
    unfold parseJsonValue
    split
    · rename_i rest
      refine ⟨rfl, fun j r h => ?_⟩
      obtain ⟨a, h1, h2⟩ := map_ok h
      obtain ⟨t, r'⟩ := a
      cases h2
      have := parseJsonString_length h1
      rw [List.length_cons] at hs
      dsimp only
      omega
    · rename_i rest
      have hl := skip_length rest
      rw [List.length_cons] at hs
      split
      · rename_i rest' heq
        refine ⟨rfl, fun j r h => ?_⟩
        cases h
        rw [heq, List.length_cons] at hl
        omega
      · obtain ⟨h1, h2⟩ := ihi (skipJsonSpace rest) (by omega) f g (by omega) (by omega)
        rw [h1] at h2 ⊢
        refine ⟨rfl, fun j r h => ?_⟩
        obtain ⟨⟨l, r'⟩, h3, h4⟩ := map_ok h
        cases h4
        have := h2 _ _ h3
        dsimp only
        omega
    · rename_i rest
      have hl := skip_length rest
      rw [List.length_cons] at hs
      split
      · rename_i rest' heq
        refine ⟨rfl, fun j r h => ?_⟩
        cases h
        rw [heq, List.length_cons] at hl
        omega
      · rename_i rest' heq
        rw [heq, List.length_cons] at hl
        obtain ⟨h1, h2⟩ := ihm rest' (by omega) f g (by omega) (by omega)
        rw [h1] at h2 ⊢
        refine ⟨rfl, fun j r h => ?_⟩
        obtain ⟨⟨l, r'⟩, h3, h4⟩ := map_ok h
        cases h4
        have := h2 _ _ h3
        dsimp only
        omega
      · exact ⟨rfl, fun j r h => by cases h⟩
    · exact ⟨rfl, fun j r h => hs ▸ parseScalar_length h⟩
  have hi : ∀ s : PyStr, s.length = n → ∀ f g, 2 * n + 2 ≤ f → 2 * n + 2 ≤ g →
      parseJsonItems f s = parseJsonItems g s ∧ ∀ j rest, parseJsonItems f s = .ok (j, rest) → rest.length < n := by
    intro s hs f g hf hg
    obtain ⟨f, rfl⟩ : ∃ f', f = f' + 1 := ⟨f - 1, by omega⟩
    obtain ⟨g, rfl⟩ : ∃ f', g = f' + 1 := ⟨g - 1, by omega⟩
    unfold parseJsonItems
    obtain ⟨h1, h2⟩ := hv s hs f g (by omega) (by omega)
    rw [h1] at h2 ⊢
    split
    · exact ⟨rfl, fun j r h => by cases h⟩
    · rename_i v rest heq
      have hr := h2 _ _ heq
      have hl := skip_length rest
      split
      · rename_i rest' heq'
        rw [heq', List.length_cons] at hl
        exact ⟨rfl, fun j r h => by cases h; omega⟩
      · rename_i rest' heq'
        rw [heq', List.length_cons] at hl
        have hl' := skip_length rest'
        obtain ⟨h3, h4⟩ := ihi (skipJsonSpace rest') (by omega) f g (by omega) (by omega)
        rw [h3] at h4 ⊢
        refine ⟨rfl, fun j r h => ?_⟩
        obtain ⟨⟨l, r'⟩, h5, h6⟩ := map_ok h
        cases h6
        have := h4 _ _ h5
        dsimp only
        omega
      · exact ⟨rfl, fun j r h => by cases h⟩
  have hm : ∀ s : PyStr, s.length = n → ∀ f g, 2 * n + 2 ≤ f → 2 * n + 2 ≤ g →
      parseJsonMembers f s = parseJsonMembers g s ∧ ∀ j rest, parseJsonMembers f s = .ok (j, rest) → rest.length < n := by
    intro s hs f g hf hg
    obtain ⟨f, rfl⟩ : ∃ f', f = f' + 1 := ⟨f - 1, by omega⟩
    obtain ⟨g, rfl⟩ : ∃ f', g = f' + 1 := ⟨g - 1, by omega⟩
    unfold parseJsonMembers
    split
    · exact ⟨rfl, fun j r h => by cases h⟩
    · rename_i k rest heq
      have hr := parseJsonString_length heq
      have hl := skip_length rest
      split
      · rename_i rest' heq'
        rw [heq', List.length_cons] at hl
        have hl' := skip_length rest'
        obtain ⟨h1, h2⟩ := ihv (skipJsonSpace rest') (by omega) f g (by omega) (by omega)
        rw [h1] at h2 ⊢
        split
        · exact ⟨rfl, fun j r h => by cases h⟩
        · rename_i v rest'' heq3
          have hr' := h2 _ _ heq3
          have hl2 := skip_length rest''
          split
          · rename_i rest3 heq4
            rw [heq4, List.length_cons] at hl2
            exact ⟨rfl, fun j r h => by cases h; omega⟩
          · rename_i rest3 heq4
            rw [heq4, List.length_cons] at hl2
            have hl3 := skip_length rest3
            split
            · rename_i rest4 heq5
              rw [heq5, List.length_cons] at hl3
              obtain ⟨h3, h4⟩ := ihm rest4 (by omega) f g (by omega) (by omega)
              rw [h3] at h4 ⊢
              refine ⟨rfl, fun j r h => ?_⟩
              obtain ⟨⟨l, r'⟩, h5, h6⟩ := map_ok h
              cases h6
              have := h4 _ _ h5
              dsimp only
              omega
            · exact ⟨rfl, fun j r h => by cases h⟩
          · exact ⟨rfl, fun j r h => by cases h⟩
      · exact ⟨rfl, fun j r h => by cases h⟩
  exact ⟨fun s hs f hf => hv s hs f _ hf (Nat.le_refl _), fun s hs f hf => hi s hs f _ hf (Nat.le_refl _),
    fun s hs f hf => hm s hs f _ hf (Nat.le_refl _)⟩

end Verif
