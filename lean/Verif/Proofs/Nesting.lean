import Verif.Proofs.Matching
import Verif.Props.Locations
/-! where the groups of a deep AHB sit -/

namespace Verif

/-- the place `q` of the list to which a new group with the given layers is appended; `cur` is the address of the group
opened before -/
def NavLayers (cur : Option GroupPath) (previous : Option (List AhbLocationLayer)) (layers : List AhbLocationLayer)
    (q : GroupPath) : Prop :=
  (cur = none ∧ q = []) ∨
  ∃ c p n, cur = some c ∧ previous = some p ∧ q = c.take n ∧
    ((p <+: layers ∧ n = c.length) ∨
     (¬ p <+: layers ∧ p.length - (lcp p layers).length ≤ c.length ∧
        n = c.length - (p.length - (lcp p layers).length) + (layers.length - (lcp p layers).length - 1)))

theorem NavCase.layers {st : DeepState} {pos : AhbLocation} {q : GroupPath} (h : NavCase st pos q)
    (hpos : pos.pseudo = false) (hprev : ∀ p, st.previousPosition = some p → p.pseudo = false) :
    NavLayers st.sgHere (st.previousPosition.map AhbLocation.layers) pos.layers q := by
  rcases h with ⟨h1, h2⟩ | ⟨c, previous, n, h1, h2, h3, h4, h5⟩
  · exact Or.inl ⟨h1, h2⟩
  · refine Or.inr ⟨c, previous.layers, n, h1, by rw [h2]; rfl, h3, ?_⟩
    rcases h5 with ⟨h5, h6⟩ | ⟨h5, d, h6, h7, h8⟩
    · exact Or.inl ⟨(C04_is_sub_location_of _ _).1 h5, h6⟩
    · obtain ⟨d1, d2⟩ := distance_ok (hprev _ h2) hpos h6
      refine Or.inr ⟨fun hp => ?_, by rw [← d1]; exact h7, by rw [h8, d1, d2]⟩
      rw [(C04_is_sub_location_of _ _).2 hp] at h5
      cases h5

/-- the n-th new group sits where `NavLayers` says -/
def Walk : Option GroupPath → List Opening → List GroupPath → Prop
  | _, [], [] => True
  | cur, o :: os, a :: as => (∃ q n, a = q ++ [n] ∧ NavLayers cur o.previous o.layers q) ∧ Walk (some a) os as
  | _, _, _ => False

theorem Walk.length {cur os as} (h : Walk cur os as) : as.length = os.length := by
  induction os generalizing cur as with
  | nil => cases as with
    | nil => rfl
    | cons a as => exact h.elim
  | cons o os ih => cases as with
    | nil => exact h.elim
    | cons a as => simp [ih h.2]

theorem deepFold_nav {reader : MigLookup} {posStr} (runs : List Run) (hruns : ∀ r ∈ runs, r.location.pseudo = false)
    {st st' : DeepState} (hinv : st.Inv) (hprev : ∀ p, st.previousPosition = some p → p.pseudo = false)
    (h : runs.foldlM (deepStep reader posStr) st = .ok st') :
    ∃ as, groupAddresses st'.lines = groupAddresses st.lines ++ as ∧
      Walk st.sgHere (openings reader st.usedStacks (st.previousPosition.map AhbLocation.layers) runs) as := by
  induction runs generalizing st with
  | nil => cases h; exact ⟨[], by simp, by simp [openings, Walk]⟩
  | cons r runs ih =>
    rw [List.foldlM_cons] at h
    simp only [bind, Except.bind] at h
    split at h
    · cases h
    · rename_i st1 hst1
      obtain ⟨h1, h2, h3, ⟨hp, hnav⟩, _⟩ := deepStep_ok hinv hst1
      have hr := hruns r (by simp)
      have hprev1 : ∀ p, st1.previousPosition = some p → p.pseudo = false := by
        intro p hp'
        rw [hp] at hp'
        split at hp'
        · cases hp'; exact hr
        · exact hprev p hp'
      obtain ⟨as, ha, hw⟩ := ih (fun r hr => hruns r (by simp [hr])) h1 hprev1 h
      have hm : st1.previousPosition.map AhbLocation.layers =
          if r.isUsed then some r.location.layers else st.previousPosition.map AhbLocation.layers := by
        rw [hp]; split <;> rfl
      rw [h2, hm] at hw
      rw [openings]
      rcases hnav with ⟨hno, ha1, hs1⟩ | ⟨hb, hu, path, hpath, q, n, hcase, ha1, hs1⟩
      · refine ⟨as, by rw [ha, ha1], ?_⟩
        have : (if (r.isHeading || r.hasDataElement) = true then []
            else (r.openedPath reader st.usedStacks).toList.map fun path =>
              (⟨path, r.location.layers, st.previousPosition.map AhbLocation.layers⟩ : Opening)) = [] := by
          rcases hno with hno | hno
          · rw [if_pos hno]
          · rw [hno]; simp
        rw [this, List.nil_append, ← hs1]
        exact hw
      · refine ⟨(q ++ [n]) :: as, by rw [ha, ha1]; simp, ?_⟩
        rw [hpath, hb]
        rw [hs1] at hw
        exact ⟨⟨q, n, rfl, hcase.layers hr hprev⟩, hw⟩

/-- `m` counts the layers: the group for the first `m` layers of opening `n` sits at the first `m` indices of its address -/
def Nested (os : List Opening) (as : List GroupPath) (n : Nat) : Prop :=
  ∀ o a, os[n]? = some o → as[n]? = some a → a.length = o.layers.length ∧
    ∀ m, 0 < m → m ≤ o.layers.length → ∃ j o', j ≤ n ∧ os[j]? = some o' ∧ o'.layers = o.layers.take m ∧
      as[j]? = some (a.take m) ∧ ∀ k ok, j < k → k ≤ n → os[k]? = some ok → ok.layers ≠ o.layers.take m

theorem Walk.getElem {cur os as} (h : Walk cur os as) (n : Nat) (o : Opening) (a : GroupPath)
    (ho : os[n]? = some o) (ha : as[n]? = some a) : ∃ q k, a = q ++ [k] ∧
      NavLayers (match n with | 0 => cur | m + 1 => as[m]?) o.previous o.layers q := by
  induction os generalizing cur as n with
  | nil => simp at ho
  | cons o' os ih => cases as with
    | nil => simp at ha
    | cons a' as => cases n with
      | zero => cases ho; cases ha; exact h.1
      | succ n =>
        obtain ⟨q, k, h1, h2⟩ := ih h.2 n (by simpa using ho) (by simpa using ha)
        refine ⟨q, k, h1, ?_⟩
        cases n with
        | zero => simpa using h2
        | succ n => simpa using h2

theorem nested {os as} (hw : Walk none os as) (hone : OneLayerAtATime os) (n : Nat) : Nested os as n := by
  induction n with
  | zero =>
    intro o a ho ha
    obtain ⟨q, k, rfl, hnav⟩ := hw.getElem 0 o a ho ha
    have hl := hone.1 o ho
    rcases hnav with ⟨_, rfl⟩ | ⟨c, p, n, h1, _⟩
    · refine ⟨by simp [hl], fun m hm hm' => ⟨0, o, Nat.le_refl _, ho, ?_, ?_, fun k _ h1 h2 => by omega⟩⟩
      · rw [List.take_of_length_le (by omega)]
      · rw [List.take_of_length_le (by simp; omega)]; exact ha
    · cases h1
  | succ n ih =>
    intro o a ho ha
    have hlt : n < os.length := by have := (List.getElem?_eq_some_iff.1 ho).1; omega
    have hlt' : n < as.length := by rw [hw.length]; exact hlt
    have ho1 : os[n]? = some os[n] := List.getElem?_eq_getElem hlt
    have ha1 : as[n]? = some as[n] := List.getElem?_eq_getElem hlt'
    generalize os[n] = o1 at ho1
    generalize as[n] = a1 at ha1
    obtain ⟨hlen, hsub⟩ := ih o1 a1 ho1 ha1
    obtain ⟨hprev, outer, x, hne, hl, hpre, hnot⟩ := hone.2 n o1 o ho1 ho
    obtain ⟨q, k, rfl, hnav⟩ := hw.getElem (n + 1) o a ho ha
    have hql : q = a1.take outer.length := by
      rcases hnav with ⟨h1, _⟩ | ⟨c, p, l, h1, h2, h3, h4⟩
      · simp [ha1] at h1
      · simp only [ha1, Option.some.injEq] at h1
        subst h1
        rw [hprev] at h2
        cases h2
        have hle := hpre.length_le
        rw [h3]
        rcases h4 with ⟨h4, h5⟩ | ⟨h4, h5, h6⟩
        · have : a1.length = outer.length := by
            have h7 := h4.length_le
            rw [hl, List.length_append] at h7
            simp only [List.length_singleton] at h7
            by_cases h8 : o1.layers.length = outer.length + 1
            · exact absurd (h4.eq_of_length (by rw [hl]; simp [h8]) ▸ List.prefix_refl _) hnot
            · omega
          rw [h5, this]
        · have hlcp : (lcp o1.layers o.layers).length = outer.length := by
            have h7 := (lcp_greatest hpre (b := o.layers) ⟨[x], hl.symm⟩).length_le
            have h8 := (lcp_prefix_right o1.layers o.layers).length_le
            by_cases h9 : (lcp o1.layers o.layers).length = o.layers.length
            · exact absurd ((lcp_prefix_right o1.layers o.layers).eq_of_length h9 ▸ lcp_prefix_left _ _) hnot
            · rw [hl, List.length_append] at h8 h9
              simp only [List.length_singleton] at h8 h9
              rw [← hl] at h8 h9
              omega
          congr 1
          rw [hlcp] at h6
          rw [h6, hl, List.length_append]
          simp only [List.length_singleton]
          omega
    have hle := hpre.length_le
    have hqlen : q.length = outer.length := by rw [hql, List.length_take]; omega
    refine ⟨by simp [hl, hqlen], fun m hm hm' => ?_⟩
    by_cases hm1 : m = outer.length + 1
    · refine ⟨n + 1, o, Nat.le_refl _, ho, ?_, ?_, fun k _ h1 h2 => by omega⟩
      · rw [List.take_of_length_le (by simp [hl]; omega)]
      · rw [List.take_of_length_le (by simp; omega)]; exact ha
    · rw [hl, List.length_append, List.length_singleton] at hm'
      have hm2 : m ≤ outer.length := by omega
      obtain ⟨j, o', hj, hoj, hlj, haj, hk⟩ := hsub m hm (by omega)
      have htake : o.layers.take m = o1.layers.take m := by
        rw [hl, List.take_append_of_le_length hm2]
        obtain ⟨t, ht⟩ := hpre
        rw [← ht, List.take_append_of_le_length hm2]
      rw [htake]
      refine ⟨j, o', by omega, hoj, hlj, ?_, ?_⟩
      · rw [haj, List.take_append_of_le_length (by omega), hql, List.take_take, Nat.min_eq_left hm2]
      · intro k ok h1 h2 h3
        by_cases hkn : k = n + 1
        · subst hkn
          rw [ho] at h3
          cases h3
          rw [← htake]
          intro he
          have := congrArg List.length he
          rw [List.length_take, hl, List.length_append, List.length_singleton] at this
          omega
        · exact hk k ok h1 (by omega) h3

end Verif
