import Verif.Proofs.Nesting
/-! `itertools.groupby` and consequences for `to_deep_ahb` -/

namespace Verif

section
variable {α κ : Type} [DecidableEq κ] (key : α → κ)

theorem groupBy_cons (x : α) (xs : List α) : groupBy key (x :: xs) =
    match groupBy key xs with
    | [] => [(key x, [x])]
    | (k, g) :: rest => if key x = k then (k, x :: g) :: rest else (key x, [x]) :: (k, g) :: rest := rfl

theorem groupBy_flatten (xs : List α) : (groupBy key xs).flatMap Prod.snd = xs := by
  induction xs with
  | nil => rfl
  | cons x xs ih =>
    rw [groupBy_cons]
    split
    · rename_i h; rw [h] at ih; simp only [List.flatMap_nil] at ih; simp [← ih]
    · rename_i k g rest h
      rw [h] at ih
      split <;> simp [← ih]

theorem groupBy_keys (xs : List α) : ∀ r ∈ groupBy key xs, r.2 ≠ [] ∧ ∀ x ∈ r.2, key x = r.1 := by
  induction xs with
  | nil => simp [groupBy]
  | cons x xs ih =>
    rw [groupBy_cons]
    split
    · simp
    · rename_i k g rest h
      rw [h] at ih
      split
      · rename_i hk
        intro r hr
        rcases List.mem_cons.1 hr with rfl | hr
        · refine ⟨by simp, fun y hy => ?_⟩
          rcases List.mem_cons.1 hy with rfl | hy
          · exact hk
          · exact (ih (k, g) (by simp)).2 y hy
        · exact ih r (by simp [hr])
      · intro r hr
        rcases List.mem_cons.1 hr with rfl | hr
        · simp
        · exact ih r hr

theorem groupBy_adjacent (xs : List α) (n : Nat) (a b : κ × List α) (ha : (groupBy key xs)[n]? = some a)
    (hb : (groupBy key xs)[n + 1]? = some b) : a.1 ≠ b.1 := by
  induction xs generalizing n a with
  | nil => simp [groupBy] at ha
  | cons x xs ih =>
    rw [groupBy_cons] at ha hb
    split at ha
    · simp_all
    · rename_i k g rest h
      simp only [h] at hb ih
      split at ha
      · rename_i hk
        rw [if_pos hk] at hb
        cases n with
        | zero =>
          simp only [List.getElem?_cons_zero, Option.some.injEq] at ha
          subst ha
          exact ih 0 (k, g) (by simp) (by simpa using hb)
        | succ n => exact ih (n + 1) a (by simpa using ha) (by simpa using hb)
      · rename_i hk
        rw [if_neg hk] at hb
        cases n with
        | zero =>
          simp only [List.getElem?_cons_zero, Option.some.injEq] at ha
          subst ha
          simp at hb
          subst hb
          exact hk
        | succ n => exact ih n a (by simpa using ha) (by simpa using hb)
end

/-- the runs consist of the located lines, in order -/
theorem runsOf_lines (located : List (AhbLine × AhbLocation)) :
    (runsOf located).flatMap Run.lines = located.map Prod.fst := by
  have : (runsOf located).flatMap Run.lines = ((runsOf located).flatMap Prod.snd).map Prod.fst := by
    rw [List.map_flatMap]; rfl
  rw [this, runsOf, groupBy_flatten]

theorem runsOf_mem {located : List (AhbLine × AhbLocation)} {r : Run} (hr : r ∈ runsOf located) :
    ∀ x ∈ r.2, x ∈ located := by
  intro x hx
  have := groupBy_flatten (fun x : AhbLine × AhbLocation => removeQualifier x.2) located
  rw [← this, List.mem_flatMap]
  exact ⟨r, hr, hx⟩

theorem runsOf_pseudo {sgh lines located} (h : determineLocations sgh lines = .ok located) :
    ∀ r ∈ runsOf located, r.location.pseudo = false := by
  obtain ⟨hlen, htr⟩ := determineLocations_trace h
  have hall : ∀ x ∈ located, x.2.pseudo = false := by
    intro x hx
    obtain ⟨n, hn, rfl⟩ := List.getElem_of_mem hx
    obtain ⟨layers, h1, _⟩ := htr n _ (List.getElem?_eq_getElem (by omega))
    rw [List.getElem?_eq_getElem hn, Option.some.injEq] at h1
    rw [h1]
  intro r hr
  unfold Run.location
  split
  · rename_i l loc heq
    exact hall (l, loc) (runsOf_mem hr _ (by rw [heq]; simp))
  · obtain ⟨hne, hk⟩ := groupBy_keys _ _ r hr
    obtain ⟨x, hx⟩ := List.exists_mem_of_ne_nil _ hne
    rw [← hk x hx]
    rfl

/-! ## the groups among the created items are the openings -/

theorem openedPath_head {reader used} {r : Run} {path} (h : r.openedPath reader used = some path) :
    ∃ first, r.lines.head? = some first := by
  unfold Run.openedPath at h
  cases hf : r.lines.head? with
  | none => simp [hf] at h
  | some first => exact ⟨first, rfl⟩

theorem openedPath_not_mem {reader used} {r : Run} {path} (h : r.openedPath reader used = some path) : path ∉ used := by
  unfold Run.openedPath at h
  split at h
  · split at h
    · rename_i hc; cases h; exact hc.2.2.1
    · cases h
  · cases h

/-- the discriminator of a group item -/
def DocItem.groupDiscriminator : DocItem → Option (Option PyStr)
  | .group d _ _ => some d
  | _ => none

theorem createdItems_groups (reader : MigLookup) (posStr) (used prev) (runs : List Run) :
    (createdItems reader posStr used runs).filterMap DocItem.groupDiscriminator =
      (openings reader used prev runs).map fun o => some o.path := by
  induction runs generalizing used prev with
  | nil => rfl
  | cons r runs ih =>
    rw [createdItems, openings, List.filterMap_append, List.map_append, ← ih]
    congr 1
    unfold Run.created
    by_cases hh : r.isHeading = true
    · simp [hh]
    · by_cases hd : r.hasDataElement = true
      · simp only [hh, hd, Bool.false_eq_true, if_false, if_true, Bool.or_true, List.map_nil]
        unfold Run.createdDataElement
        split
        · split <;> simp [DocItem.groupDiscriminator]
        · simp
      · simp only [hh, hd, Bool.false_eq_true, if_false, Bool.or_self]
        rw [List.filterMap_append]
        have h2 : (r.createdSegment reader posStr).toList.filterMap DocItem.groupDiscriminator = [] := by
          unfold Run.createdSegment
          split <;> simp [DocItem.groupDiscriminator]
        rw [h2, List.append_nil]
        unfold Run.openedGroup
        cases hp : r.openedPath reader used with
        | none => simp
        | some path =>
          obtain ⟨first, hf⟩ := openedPath_head hp
          simp [hf, DocItem.groupDiscriminator]

theorem openings_nodup (reader : MigLookup) (used prev) (runs : List Run) :
    ((openings reader used prev runs).map Opening.path).Nodup ∧
      ∀ o ∈ openings reader used prev runs, o.path ∉ used := by
  induction runs generalizing used prev with
  | nil => simp [openings]
  | cons r runs ih =>
    rw [openings]
    by_cases hh : (r.isHeading || r.hasDataElement) = true
    · simp only [hh, if_true, List.nil_append]
      have := ih (r.usedAfter reader used) (if r.isUsed then some r.location.layers else prev)
      rwa [show r.usedAfter reader used = used by simp [Run.usedAfter, hh]] at this ⊢
    · simp only [hh, Bool.false_eq_true, if_false]
      have hu : r.usedAfter reader used = used ++ (r.openedPath reader used).toList := by simp [Run.usedAfter, hh]
      obtain ⟨h1, h2⟩ := ih (r.usedAfter reader used) (if r.isUsed then some r.location.layers else prev)
      cases hp : r.openedPath reader used with
      | none =>
        rw [hu, hp] at h1 h2 ⊢
        simp only [Option.toList_none, List.append_nil, List.map_nil, List.nil_append] at h1 h2 ⊢
        exact ⟨h1, h2⟩
      | some path =>
        rw [hu, hp] at h1 h2 ⊢
        simp only [Option.toList_some, List.map_cons, List.map_nil, List.cons_append, List.nil_append,
          List.nodup_cons, List.mem_cons, forall_eq_or_imp] at h1 h2 ⊢
        refine ⟨⟨?_, h1⟩, openedPath_not_mem hp, ?_⟩
        · intro hm
          obtain ⟨o, ho, he⟩ := List.mem_map.1 hm
          exact h2 o ho (by simp [he])
        · intro o ho hm
          exact h2 o ho (by simp [hm])

/-- discriminators of the groups in document order -/
theorem groups_discriminators (l : List SegmentGroup) :
    (groupAddresses l).map (fun a => (groupAt? l a).map SegmentGroup.discriminator) =
      ((documentOrder l).filterMap DocItem.groupDiscriminator).map some := by
  have h := documentOrder_groups l
  have h2 : ∀ items : List DocItem, (items.filterMap DocItem.groupDiscriminator).map some =
      ((items.filter DocItem.isGroup).map some).map fun x : Option DocItem => x.bind DocItem.groupDiscriminator := by
    intro items
    induction items with
    | nil => rfl
    | cons x items ih =>
      rw [List.filterMap_cons, List.filter_cons]
      cases x <;> simp_all [DocItem.groupDiscriminator, DocItem.isGroup]
  rw [h2, h, List.map_map]
  apply List.map_congr_left
  intro a _
  simp only [Function.comp_apply]
  cases groupAt? l a <;> rfl

/-- everything that is known about a successful run -/
theorem toDeepAhb_facts {reader : MigLookup} {posStr flat sgh flat' deep}
    (h : toDeepAhb reader posStr flat sgh = .ok (flat', deep)) :
    ∃ located, determineLocations sgh flat.lines = .ok located ∧
      documentOrder deep.lines = createdItems reader posStr [] (runsOf located) ∧
      (∀ x ∈ documentOrder deep.lines, x.NotBlank) ∧
      Walk none (openings reader [] none (runsOf located)) (groupAddresses deep.lines) ∧
      ((openings reader [] none (runsOf located)) ≠ [] →
        ((openings reader [] none (runsOf located)).map Opening.path).head? = some rootPath) := by
  obtain ⟨located, st, h1, h2, h3⟩ := toDeepAhb_ok h
  cases h3
  obtain ⟨g1, g2, g3, _⟩ := deepFold_ok _ DeepState.init_inv h2
  obtain ⟨as, g4, g5⟩ := deepFold_nav _ (runsOf_pseudo h1) DeepState.init_inv (by simp [DeepState.init]) h2
  have hd : documentOrder st.lines = createdItems reader posStr [] (runsOf located) := by
    rw [g2]; simp [DeepState.init, documentOrder]
  refine ⟨located, h1, hd, by rw [hd]; exact g3, ?_, ?_⟩
  · have : groupAddresses DeepState.init.lines = [] := rfl
    rw [g4, this]
    exact g5
  · -- the first opened group is the root: by induction over the runs
    have key : ∀ runs : List Run, ∀ prev, ∀ st st' : DeepState, st.Inv → st.usedStacks = [] →
        runs.foldlM (deepStep reader posStr) st = .ok st' → openings reader [] prev runs ≠ [] →
        ((openings reader [] prev runs).map Opening.path).head? = some rootPath := by
      intro runs
      induction runs with
      | nil => intro prev st st' _ _ _ hne; exact absurd rfl hne
      | cons r runs ih =>
        intro prev st st' hinv hu hf hne
        rw [List.foldlM_cons] at hf
        simp only [bind, Except.bind] at hf
        split at hf
        · cases hf
        · rename_i st1 hst1
          obtain ⟨i1, i2, -, -⟩ := deepStep_ok hinv hst1
          rw [hu] at i2
          rw [openings] at hne ⊢
          by_cases hh : (r.isHeading || r.hasDataElement) = true
          · have hua : r.usedAfter reader [] = [] := by simp [Run.usedAfter, hh]
            simp only [hh, if_true, List.nil_append, hua] at hne ⊢
            exact ih _ st1 st' i1 (by rw [i2, hua]) hf hne
          · have hua : r.usedAfter reader [] = (r.openedPath reader []).toList := by simp [Run.usedAfter, hh]
            simp only [hh, Bool.false_eq_true, if_false, hua] at hne ⊢
            cases hp : r.openedPath reader [] with
            | none =>
              rw [hp] at hne hua
              simp only [Option.toList_none, List.map_nil, List.nil_append] at hne hua ⊢
              exact ih _ st1 st' i1 (by rw [i2, hua]) hf hne
            | some path =>
              rw [hua, hp] at i2
              rcases i1 with hempty | ⟨hroot, _⟩
              · rw [hempty.used] at i2; simp at i2
              · rw [i2] at hroot
                simp at hroot
                simp [hroot]
    exact key _ none _ _ DeepState.init_inv rfl h2

end Verif
