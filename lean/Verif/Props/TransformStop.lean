import Verif.Props.TransformAll
/-!
# C95 A transformation that is stopped leaves no value pool half transformed
-/

namespace Verif

section
variable {A D : Type} (env : TransformEnv A D) (app : A) (ahb : DeepAhb)

theorem replacedBy_of_ok {de de' : DataElement} {dict : List (PyStr × Option PyStr)} {r : PyRes Unit} (hpool : de.isValuePool = true)
    (hd : (dict.map Prod.fst).Nodup) (hk : ∀ q ∈ qualifiersOf de.poolEntries, q ∈ dict.map Prod.fst)
    (h : (de', r) = de.replaceValuePool (fun q => dictGet q dict) none) :
    (r = .ok () ∧ ReplacedBy dict de de') ∨ (r = .error .valueError ∧ HasUnacceptable dict de) := by
  obtain ⟨pool, hkind⟩ : ∃ pool, de.kind = .valuePool pool := by
    cases hk : de.kind with
    | valuePool pool => exact ⟨pool, rfl⟩
    | freeText e => simp [DataElement.isValuePool, hk] at hpool
  have hent : de.poolEntries = pool := by unfold DataElement.poolEntries; rw [hkind]
  rw [hent] at hk
  have hmem : ∀ e ∈ pool, e.qualifier ∈ qualifiersOf pool := fun e he => List.mem_map.2 ⟨e, he, rfl⟩
  have hget : ∀ e ∈ pool, ∃ w, dictGet e.qualifier dict = some w ∧ (e.qualifier, w) ∈ dict := by
    intro e he
    obtain ⟨⟨k, w⟩, hp, hkw⟩ := List.mem_map.1 (hk _ (hmem e he))
    simp only at hkw
    subst hkw
    exact ⟨w, (dictGet_eq_some hd).2 hp, hp⟩
  by_cases hacc : ∀ e ∈ pool, ∀ new, dictGet e.qualifier dict = some new → ∃ q, new = some q ∧ AcceptableQualifier q
  · left
    obtain ⟨pool', g1, g2, g3⟩ := C34_repeated_qualifiers de pool hkind (fun q => dictGet q dict) none hacc
    rw [g1] at h
    cases h
    refine ⟨rfl, pool', rfl, by rw [hent, g2], ?_⟩
    rw [hent]
    intro i e he
    refine ⟨(g3 i e he).1, fun hlast => ?_⟩
    obtain ⟨w, hw, hw'⟩ := hget e (List.mem_of_getElem? he)
    obtain ⟨new, rfl, hnew⟩ := hacc e (List.mem_of_getElem? he) w hw
    refine ⟨new, hw', hnew, ?_⟩
    have := (g3 i e he).2 hlast
    simp only [hw] at this
    rw [this]
    rfl
  · right
    simp only [not_forall] at hacc
    obtain ⟨e, he, new, hnew, hno⟩ := hacc
    have hun := (C34_unacceptable de pool hkind (fun q => dictGet q dict) none).1
    have herr : (de.replaceValuePool (fun q => dictGet q dict) none).2 = .error .valueError :=
      hun.2 ⟨e, he, new, hnew, fun q hq hq' => hno ⟨q, hq, hq'⟩⟩
    rw [← h] at herr
    refine ⟨herr, e.qualifier, by rw [hent]; exact hmem e he, new, ?_, fun q hq hq' => hno ⟨q, hq, hq'⟩⟩
    obtain ⟨w, hw, hw'⟩ := hget e he
    rw [hnew] at hw
    cases hw
    exact hw'

/-- **C95** whatever the converter does, whatever the schedule is and whenever one looks (also in between, after an exception, or when the
call has been cancelled): every value pool is unchanged, or completely replaced by a dictionary that `generate_value_pool_replacement` has
returned for it; unless this dictionary contains something that is no acceptable qualifier. -/
theorem C95_all_or_nothing (schedule : List (Nat × Choice)) (s s' : TopState A D)
    (h : topRun env app schedule (topInit env app ahb) = some s) (hs : s' = s ∨ s' = s.cancel) :
    List.Forall₂ (fun de (t : PoolTask A D) => t.pool = de ∨
      (IsTransformed de ∧ ∃ dict, env.EndsWith app de.discriminator de.poolEntries (.ok dict) ∧
        (ReplacedBy dict de t.pool ∨ HasUnacceptable dict de))) ahb.getAllValuePools s'.tasks := by
  have hval : ∀ x ∈ ahb.getAllValuePools, x.isValuePool = true := fun x hx => ((C32_get_all_value_pools ahb).1 x hx).1
  have key : List.Forall₂ (fun de (t : PoolTask A D) => t.pool = de ∨
      (IsTransformed de ∧ ∃ dict, env.EndsWith app de.discriminator de.poolEntries (.ok dict) ∧
        (ReplacedBy dict de t.pool ∨ HasUnacceptable dict de))) ahb.getAllValuePools s.tasks := by
    have hinv := (topInv_run h).tasks
    generalize ahb.getAllValuePools = pools at hinv hval ⊢
    generalize s.tasks = tasks at hinv ⊢
    clear h hs
    induction hinv with
    | nil => exact .nil
    | cons hab _ ih =>
      rename_i de t pools tasks _
      refine .cons ?_ (ih fun x hx => hval x (by simp [hx]))
      cases t with
      | skipped de' => exact .inl hab.1
      | running de' g => exact .inl hab.1
      | done de' r =>
        obtain ⟨h1, rg, hend, ⟨e, rfl, rfl, rfl⟩ | ⟨dict, rfl, h2⟩⟩ := hab
        · exact .inl rfl
        · right
          obtain ⟨g1, d, p, n, v, -, -, -, g2⟩ := C56_keys env app _ _ dict hend
          refine ⟨h1, dict, hend, ?_⟩
          rcases replacedBy_of_ok (hval de (by simp)) g1 (fun q hq => (g2 q).2 (.inl hq)) h2 with ⟨-, h3⟩ | ⟨-, h3⟩
          · exact .inl h3
          · exact .inr h3
  rcases hs with rfl | rfl
  · exact key
  · unfold TopState.cancel
    split
    · exact key
    · simp only [List.forall₂_map_right_iff]
      refine key.imp fun de t ht => ?_
      cases t <;> exact ht

/-- **C95** if the converter reads what it needs before it awaits anything, the replacement is the described one: every value pool is
unchanged, or completely replaced as described, or its own transformation fails. -/
theorem C95_described (hm : env.IsMapping) (ho : env.Overwrites) (hr : env.toApp.ReadsFirst) (schedule : List (Nat × Choice))
    (s s' : TopState A D) (h : topRun env app schedule (topInit env app ahb) = some s) (hs : s' = s ∨ s' = s.cancel) :
    List.Forall₂ (fun de (t : PoolTask A D) => t.pool = de ∨
      (IsTransformed de ∧ (env.PoolReplaced app de t.pool ∨ env.PoolFails app de .valueError))) ahb.getAllValuePools s'.tasks := by
  have hval : ∀ x ∈ ahb.getAllValuePools, x.isValuePool = true := fun x hx => ((C32_get_all_value_pools ahb).1 x hx).1
  have key : List.Forall₂ (fun de (t : PoolTask A D) => t.pool = de ∨
      (IsTransformed de ∧ (env.PoolReplaced app de t.pool ∨ env.PoolFails app de .valueError))) ahb.getAllValuePools s.tasks := by
    have hinv := (topInv_run h).tasks
    generalize ahb.getAllValuePools = pools at hinv hval ⊢
    generalize s.tasks = tasks at hinv ⊢
    clear h hs
    induction hinv with
    | nil => exact .nil
    | cons hab _ ih =>
      rename_i de t pools tasks _
      refine .cons ?_ (ih fun x hx => hval x (by simp [hx]))
      cases t with
      | skipped de' => exact .inl hab.1
      | running de' g => exact .inl hab.1
      | done de' r =>
        have hab' := hab
        obtain ⟨h1, rg, hend, ⟨e, rfl, rfl, rfl⟩ | ⟨dict, rfl, h2⟩⟩ := hab
        · exact .inl rfl
        · right
          refine ⟨h1, ?_⟩
          obtain ⟨g1, d, p, n, v, -, -, -, g2⟩ := C56_keys env app _ _ dict hend
          rcases poolTask_done env app hm ho hr (hval de (by simp)) hab' with ⟨-, h3, -⟩ | ⟨e, he, h3⟩
          · exact .inl h3
          · right
            rcases replacedBy_of_ok (hval de (by simp)) g1 (fun q hq => (g2 q).2 (.inl hq)) h2 with ⟨h4, -⟩ | ⟨h4, -⟩
            · rw [he] at h4; cases h4
            · rw [he] at h4; cases h4; exact h3
  rcases hs with rfl | rfl
  · exact key
  · unfold TopState.cancel
    split
    · exact key
    · simp only [List.forall₂_map_right_iff]
      refine key.imp fun de t ht => ?_
      cases t <;> exact ht

/-- **C95** a cancelled call is over: it has raised a `CancelledError`, and no task can go on. -/
theorem C95_cancelled (s : TopState A D) (h : s.outcome = none) : s.cancel.outcome = some (.error .other) ∧
    (∀ c, topStep env app c s.cancel = none) ∧ s.cancel.tasks.map PoolTask.pool = s.tasks.map PoolTask.pool := by
  unfold TopState.cancel
  rw [h]
  refine ⟨rfl, fun c => ?_, ?_⟩
  · unfold topStep
    simp only [List.getElem?_map]
    cases s.tasks[c.1]? with
    | none => rfl
    | some t => cases t <;> rfl
  · simp only [List.map_map]
    refine List.map_congr_left fun t _ => ?_
    cases t <;> rfl

end

/-! ## examples -/

/-- two value pools that are transformed -/
def otherDe : DataElement :=
  { exPoolDe with discriminator := some py!"$[\"x\"]", kind := .valuePool [⟨py!"Z01", py!"a", py!"X"⟩, ⟨py!"Z02", py!"b", py!"X"⟩] }
def twoPoolsAhb : DeepAhb :=
  { ahbMeta := { pruefidentifikator := py!"11042" },
    lines := [.mk (some py!"root") py!"X" (some 0) (some [⟨some py!"NAD", py!"Soll", some 4, [transformDe, otherDe], none, none⟩]) none] }
def twoPoolsEnv : TransformEnv PyStr PyStr := { goodEnv with mapping := [(py!"$", py!"$"), (py!"$[\"x\"]", py!"y")] }

/-- cancelled when the first pool is done and the second one is under way: the first one is replaced, the second one is unchanged -/
example : topSummary ((topRun twoPoolsEnv py!"E07" ([(1, .self), (1, .entry 0), (0, .self), (0, .entry 0), (0, .entry 1), (0, .entry 1), (0, .entry 1),
      (0, .entry 0), (0, .entry 0), (0, .self), (1, .entry 1), (1, .entry 1)] : List (Nat × Choice)) (topInit twoPoolsEnv py!"E07" twoPoolsAhb)).map
      TopState.cancel) =
    some (some (.error .other), [{ transformDe with kind := .valuePool [⟨py!"ZE01", py!"Einzug", py!"X"⟩, ⟨py!"ZE03", py!"Wechsel", py!"X [1]"⟩] },
      otherDe]) := by
  decide +kernel

/-- application values that are not acceptable for the second qualifier of a pool -/
def halfEnv : TransformEnv PyStr PyStr := { goodEnv with toApp := .op id fun d => .ret (.ok (if d = py!"E01" then py!"Z1" else [])) }

/-- then the pool is left half transformed -/
example : topSummary (topRun halfEnv py!"E07" ([(0, .self), (0, .entry 0), (0, .entry 1), (0, .self)] : List (Nat × Choice))
      (topInit halfEnv py!"E07" transformAhb)) =
    some (some (.error .valueError), [{ transformDe with kind := .valuePool [⟨py!"Z1", py!"Einzug", py!"X"⟩, ⟨py!"E03", py!"Wechsel", py!"X [1]"⟩] },
      senderDe]) := by
  decide +kernel

end Verif
