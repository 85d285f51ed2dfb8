import Verif.Proofs.JsonGrammar
/-!
# A lone surrogate in a part of a JSON text is one in the whole text

`jsonLoads` answers with `Exc.other` only if it meets a lone surrogate. So a part of a text that can be read gives a `ValueError`.
-/

namespace Verif

theorem consUnit_error {n : Nat} {r : PyRes (List Nat × PyStr)} {e : Exc} (h : consUnit n r = .error e) : r = .error e := by
  cases r with
  | error e' => exact h
  | ok x => cases x; cases h

theorem scanUnits_error (s : PyStr) : ∀ {e : Exc}, scanUnits s = .error e → e = .valueError := by
  fun_induction scanUnits s <;> intro e h
  case case1 => cases h; rfl
  case case2 => cases h
  case case3 ih => exact ih (consUnit_error h)
  case case4 => cases h; rfl
  case case5 ih => exact ih (consUnit_error h)
  case case6 => cases h; rfl
  case case7 => cases h; rfl
  case case8 ih => exact ih (consUnit_error h)

theorem parseJsonString_error {s : PyStr} {e : Exc} (h : parseJsonString s = .error e) :
    e = .valueError ∨ e = .other ∧ ∀ u, parseJsonString (s ++ u) = .error .other := by
  unfold parseJsonString at h
  cases hs : scanUnits s with
  | error e' => rw [hs] at h; cases h; exact .inl (scanUnits_error s hs)
  | ok x =>
    obtain ⟨l, rest⟩ := x
    rw [hs] at h
    dsimp only at h
    cases hj : joinUnits l with
    | some t => rw [hj] at h; cases h
    | none =>
      rw [hj] at h
      cases h
      refine .inr ⟨rfl, fun u => ?_⟩
      obtain ⟨body, hb, hu⟩ := scanUnits_sound hs
      have := scanUnits_complete hu (rest ++ u)
      unfold parseJsonString
      rw [hb, List.append_assoc, List.cons_append, this]
      dsimp only
      rw [hj]

theorem parseJsonString_extend {s t rest : PyStr} (h : parseJsonString s = .ok (t, rest)) (u : PyStr) :
    parseJsonString (s ++ u) = .ok (t, rest ++ u) := by
  obtain ⟨k, hk, hs⟩ := parseJsonString_sound h
  obtain ⟨k', rfl, hk'⟩ := parseJsonString_complete hs
  have he : s = k' ++ rest := by simpa using hk
  rw [he, List.append_assoc, hk']

theorem parseUnsigned_error {b : Bool} {s : PyStr} {e : Exc} (h : parseUnsigned b s = .error e) : e = .valueError := by
  unfold parseUnsigned at h
  split at h
  · cases h; rfl
  · split at h
    · cases h
    · split at h
      · cases h
      · cases h; rfl

theorem parseScalar_error {s : PyStr} {e : Exc} (h : parseScalar s = .error e) : e = .valueError := by
  unfold parseScalar at h
  repeat (split at h; · cases h)
  split at h <;> exact parseUnsigned_error h

theorem skip_extend {s t : PyStr} {c : Char} (h : skipJsonSpace s = c :: t) (u : PyStr) : skipJsonSpace (s ++ u) = c :: (t ++ u) := by
  obtain ⟨w, hw, hb⟩ := skip_split s
  rw [hw, List.append_assoc, skip_blank hb, h, List.cons_append]
  unfold skipJsonSpace at h ⊢
  have hc : isJsonSpace c = false := by
    have := List.head?_dropWhile_not isJsonSpace s
    rw [h] at this
    simpa using this
  rw [List.dropWhile_cons_of_neg (by simp [hc])]

theorem map_error {α β : Type} {r : PyRes α} {f : α → β} {e : Exc} (h : r.map f = .error e) : r = .error e := by
  cases r with
  | error e' => injection h with h; rw [h]
  | ok a => cases h

/-- a value that has been read is read from a longer text too, if a comma or a bracket follows it -/
theorem value_extend {f : Nat} {s rest t : PyStr} {v : Json} {c : Char} (h : parseJsonValue f s = .ok (v, rest))
    (hr : skipJsonSpace rest = c :: t) (hc : c = ',' ∨ c = ']' ∨ c = '}') (u : PyStr) :
    ∃ n, ∀ g, n ≤ g → parseJsonValue g (s ++ u) = .ok (v, rest ++ u) := by
  obtain ⟨x, rfl, hv⟩ := (parse_sound f).1 _ _ _ h
  obtain ⟨n, hn⟩ := accepts hv
  refine ⟨n, fun g hg => ?_⟩
  rw [List.append_assoc]
  refine hn g hg _ ?_
  obtain ⟨w, hw, hb⟩ := skip_split rest
  rw [hw, List.append_assoc, hr]
  exact stops_blank hb (stops_cons hc _)

/-- the errors of the parser: a `ValueError`, or a lone surrogate, which is met in every longer text too -/
theorem parse_error (f : Nat) :
    (∀ s e, 2 * s.length + 1 ≤ f → parseJsonValue f s = .error e →
      e = .valueError ∨ s ≠ [] ∧ ∀ u, ∃ n, ∀ g, n ≤ g → parseJsonValue g (s ++ u) = .error .other) ∧
    (∀ s e, 2 * s.length + 2 ≤ f → parseJsonItems f s = .error e →
      e = .valueError ∨ s ≠ [] ∧ ∀ u, ∃ n, ∀ g, n ≤ g → parseJsonItems g (s ++ u) = .error .other) ∧
    (∀ s e, 2 * s.length + 2 ≤ f → parseJsonMembers f s = .error e →
      e = .valueError ∨ ∀ u, ∃ n, ∀ g, n ≤ g → parseJsonMembers g (s ++ u) = .error .other) := by
  induction f with
  | zero => exact ⟨fun s e h => by omega, fun s e h => by omega, fun s e h => by omega⟩
  | succ f ih =>
    obtain ⟨ihv, ihi, ihm⟩ := ih
    refine ⟨fun s e hf h => ?_, fun s e hf h => ?_, fun s e hf h => ?_⟩
    · rw [parseJsonValue.eq_def] at h
      dsimp only at h
      split at h
      · rename_i r
        rcases parseJsonString_error (map_error h) with h1 | ⟨_, h1⟩
        · exact .inl h1
        · refine .inr ⟨by simp, fun u => ⟨1, fun g hg => ?_⟩⟩
          obtain ⟨g, rfl⟩ : ∃ g', g = g' + 1 := ⟨g - 1, by omega⟩
          rw [List.cons_append, parseJsonValue, h1]
          rfl
      · rename_i r
        have hl := skip_length r
        rw [List.length_cons] at hf
        split at h
        · cases h
        · rename_i hne
          rcases ihi _ _ (by omega) (map_error h) with h1 | ⟨h0, h1⟩
          · exact .inl h1
          · refine .inr ⟨by simp, fun u => ?_⟩
            obtain ⟨n, hn⟩ := h1 u
            refine ⟨n + 1, fun g hg => ?_⟩
            obtain ⟨g, rfl⟩ : ∃ g', g = g' + 1 := ⟨g - 1, by omega⟩
            obtain ⟨c, t, hct⟩ := List.exists_cons_of_ne_nil h0
            have hx := skip_extend hct u
            rw [List.cons_append, parseJsonValue, hx]
            have hcne : c ≠ ']' := by rintro rfl; exact hne _ hct
            rw [hct] at hn
            split
            · rename_i he; cases he; exact absurd rfl hcne
            · rw [← List.cons_append, hn g (by omega)]; rfl
      · rename_i r
        have hl := skip_length r
        rw [List.length_cons] at hf
        split at h
        · cases h
        · rename_i r' he
          rw [he, List.length_cons] at hl
          rcases ihm _ _ (by omega) (map_error h) with h1 | h1
          · exact .inl h1
          · refine .inr ⟨by simp, fun u => ?_⟩
            obtain ⟨n, hn⟩ := h1 u
            refine ⟨n + 1, fun g hg => ?_⟩
            obtain ⟨g, rfl⟩ : ∃ g', g = g' + 1 := ⟨g - 1, by omega⟩
            rw [List.cons_append, parseJsonValue, skip_extend he u]
            change (parseJsonMembers g _).map _ = _
            rw [hn g (by omega)]
            rfl
        · cases h; exact .inl rfl
      · exact .inl (parseScalar_error h)
    · rw [parseJsonItems] at h
      cases hv : parseJsonValue f s with
      | error e' =>
        rw [hv] at h
        cases h
        rcases ihv _ _ (by omega) hv with h1 | ⟨h0, h1⟩
        · exact .inl h1
        · refine .inr ⟨h0, fun u => ?_⟩
          obtain ⟨n, hn⟩ := h1 u
          refine ⟨n + 1, fun g hg => ?_⟩
          obtain ⟨g, rfl⟩ : ∃ g', g = g' + 1 := ⟨g - 1, by omega⟩
          rw [parseJsonItems, hn g (by omega)]
      | ok x =>
        obtain ⟨v, rest⟩ := x
        rw [hv] at h
        dsimp only at h
        have hlen := ((fuelOk _).value s rfl f (by omega)).2 _ _ hv
        have hl := skip_length rest
        split at h
        · cases h
        · rename_i r' he
          rw [he, List.length_cons] at hl
          have hl' := skip_length r'
          rcases ihi _ _ (by omega) (map_error h) with h1 | ⟨h0, h1⟩
          · exact .inl h1
          · refine .inr ⟨by rintro rfl; simp at hlen, fun u => ?_⟩
            obtain ⟨n, hn⟩ := h1 u
            obtain ⟨m, hm⟩ := value_extend hv he (.inl rfl) u
            refine ⟨n + m + 1, fun g hg => ?_⟩
            obtain ⟨g, rfl⟩ : ∃ g', g = g' + 1 := ⟨g - 1, by omega⟩
            obtain ⟨c, t, hct⟩ := List.exists_cons_of_ne_nil h0
            rw [parseJsonItems, hm g (by omega)]
            dsimp only
            rw [skip_extend he u]
            change (parseJsonItems g _).map _ = _
            rw [hct] at hn
            rw [skip_extend hct u, ← List.cons_append, hn g (by omega)]
            rfl
        · cases h; exact .inl rfl
    · rw [parseJsonMembers] at h
      cases hk : parseJsonString s with
      | error e' =>
        rw [hk] at h
        cases h
        rcases parseJsonString_error hk with h1 | ⟨_, h1⟩
        · exact .inl h1
        · refine .inr fun u => ⟨1, fun g hg => ?_⟩
          obtain ⟨g, rfl⟩ : ∃ g', g = g' + 1 := ⟨g - 1, by omega⟩
          rw [parseJsonMembers, h1]
      | ok x =>
        obtain ⟨k, rest⟩ := x
        rw [hk] at h
        dsimp only at h
        have hlen := parseJsonString_length hk
        have hl := skip_length rest
        have hk' := parseJsonString_extend hk
        split at h
        · rename_i r1 he1
          rw [he1, List.length_cons] at hl
          have hl1 := skip_length r1
          cases hv : parseJsonValue f (skipJsonSpace r1) with
          | error e' =>
            rw [hv] at h
            cases h
            rcases ihv _ _ (by omega) hv with h1 | ⟨h0, h1⟩
            · exact .inl h1
            · refine .inr fun u => ?_
              obtain ⟨n, hn⟩ := h1 u
              refine ⟨n + 1, fun g hg => ?_⟩
              obtain ⟨g, rfl⟩ : ∃ g', g = g' + 1 := ⟨g - 1, by omega⟩
              obtain ⟨c, t, hct⟩ := List.exists_cons_of_ne_nil h0
              rw [parseJsonMembers, hk' u]
              dsimp only
              rw [skip_extend he1 u]
              rw [hct] at hn
              split
              · rename_i he
                cases he
                rw [skip_extend hct u, ← List.cons_append, hn g (by omega)]
              · rename_i hne; exact absurd rfl (hne _)
          | ok x =>
            obtain ⟨v, r2⟩ := x
            rw [hv] at h
            dsimp only at h
            have hlen2 := ((fuelOk _).value (skipJsonSpace r1) rfl f (by omega)).2 _ _ hv
            have hl2 := skip_length r2
            split at h
            · cases h
            · rename_i r3 he2
              rw [he2, List.length_cons] at hl2
              have hl3 := skip_length r3
              split at h
              · rename_i r4 he3
                rw [he3, List.length_cons] at hl3
                rcases ihm _ _ (by omega) (map_error h) with h1 | h1
                · exact .inl h1
                · refine .inr fun u => ?_
                  obtain ⟨n, hn⟩ := h1 u
                  obtain ⟨m, hm⟩ := value_extend hv he2 (.inl rfl) u
                  refine ⟨n + m + 1, fun g hg => ?_⟩
                  obtain ⟨g, rfl⟩ : ∃ g', g = g' + 1 := ⟨g - 1, by omega⟩
                  have hne : skipJsonSpace r1 ≠ [] := by intro h; rw [h] at hlen2; simp at hlen2
                  obtain ⟨c, t, hct⟩ := List.exists_cons_of_ne_nil hne
                  have hv' : parseJsonValue g (skipJsonSpace (r1 ++ u)) = .ok (v, r2 ++ u) := by
                    rw [skip_extend hct u, ← List.cons_append, ← hct]; exact hm g (by omega)
                  rw [parseJsonMembers_step (hk' u) (skip_extend he1 u) hv', skip_extend he2 u]
                  split
                  · rename_i he; cases he
                  · rename_i he
                    cases he
                    rw [skip_extend he3 u]
                    change (parseJsonMembers g _).map _ = _
                    rw [hn g (by omega)]
                    rfl
                  · rename_i hne; exact absurd rfl (hne _)
              · cases h; exact .inl rfl
            · cases h; exact .inl rfl
        · cases h; exact .inl rfl

/-- a first part of a text that can be read: if it cannot be read, then with a `ValueError` -/
theorem jsonLoads_prefix_error {t u : PyStr} {j : Json} (h : jsonLoads (t ++ u) = .ok j) {e : Exc} (he : jsonLoads t = .error e) :
    e = .valueError := by
  unfold jsonLoads at he
  split at he
  · cases he; rfl
  rename_i hbom
  have hl := skip_length t
  cases hv : parseJsonValue (2 * t.length + 2) (skipJsonSpace t) with
  | ok x =>
    rw [hv] at he
    dsimp only at he
    split at he
    · cases he
    · cases he; rfl
  | error e' =>
    rw [hv] at he
    cases he
    rcases (parse_error _).1 _ _ (by omega) hv with h1 | ⟨h0, h1⟩
    · exact h1
    · exfalso
      obtain ⟨n, hn⟩ := h1 u
      obtain ⟨c, s, hcs⟩ := List.exists_cons_of_ne_nil h0
      have hx : skipJsonSpace (t ++ u) = skipJsonSpace t ++ u := by rw [skip_extend hcs u, hcs, List.cons_append]
      unfold jsonLoads at h
      split at h
      · cases h
      · have hl' := skip_length (t ++ u)
        have a1 := ((fuelOk _).value (skipJsonSpace (t ++ u)) rfl (2 * (t ++ u).length + 2) (by omega)).1
        have a2 := ((fuelOk _).value (skipJsonSpace (t ++ u)) rfl (n + (2 * (skipJsonSpace (t ++ u)).length + 1)) (by omega)).1
        rw [a1, ← a2, hx, hn _ (by omega)] at h
        cases h

end Verif
