import Verif.Proofs.TransformAll
import Verif.Props.Deep
/-!
# Property C57: transforming all value pools, under every schedule
-/

namespace Verif

section
variable {A D : Type} (env : TransformEnv A D) (app : A) (ahb : DeepAhb)

/-- **C57 (in full, false of the code)** whenever `transform_all_value_pools` returns, every value pool returned by
`get_all_value_pools` that is to be transformed has been replaced as described and all others are unchanged. -/
def C57_statement : Prop :=
  ∀ (A D : Type) (env : TransformEnv A D) (app : A) (ahb : DeepAhb), env.IsMapping → env.Overwrites →
    ∀ schedule s, topRun env app schedule (topInit env app ahb) = some s → s.outcome = some (.ok ()) →
    List.Forall₂ (fun de (t : PoolTask A D) => (IsTransformed de → env.PoolReplaced app de t.pool) ∧ (¬ IsTransformed de → t.pool = de))
      ahb.getAllValuePools s.tasks

/-- **C57** for every converter, schedule and at every point of time: value pools that are not to be transformed are
unchanged, the others keep everything but qualifiers and meanings. -/
theorem C57_frame (schedule : List (Nat × Choice)) (s : TopState A D) (h : topRun env app schedule (topInit env app ahb) = some s) :
    List.Forall₂ (fun de (t : PoolTask A D) => (¬ IsTransformed de → t.pool = de) ∧
      ∃ pool', t.pool = { de with kind := .valuePool pool' } ∧
        pool'.map ValuePoolEntry.ahbExpression = de.poolEntries.map ValuePoolEntry.ahbExpression) ahb.getAllValuePools s.tasks := by
  have hinv := (topInv_run h).tasks
  have hval : ∀ x ∈ ahb.getAllValuePools, x.isValuePool = true := fun x hx => ((C32_get_all_value_pools ahb).1 x hx).1
  generalize ahb.getAllValuePools = pools at hinv hval ⊢
  generalize s.tasks = tasks at hinv ⊢
  clear h
  induction hinv with
  | nil => exact .nil
  | cons hab _ ih =>
    rename_i de t pools tasks _
    refine .cons ?_ (ih fun x hx => hval x (by simp [hx]))
    obtain ⟨pool, hk⟩ : ∃ pool, de.kind = .valuePool pool := by
      cases hk : de.kind with
      | valuePool pool => exact ⟨pool, rfl⟩
      | freeText e => have := hval de (by simp); simp [DataElement.isValuePool, hk] at this
    have hent : de.poolEntries = pool := by unfold DataElement.poolEntries; rw [hk]
    have hself : de = { de with kind := .valuePool pool } := by cases de; simp only at hk; rw [hk]
    cases t with
    | skipped de' => obtain ⟨rfl, h1⟩ := hab; exact ⟨fun _ => rfl, pool, hself, by rw [hent]⟩
    | running de' g => obtain ⟨rfl, h1⟩ := hab; exact ⟨fun _ => rfl, pool, hself, by rw [hent]⟩
    | done de' r =>
      obtain ⟨h1, rg, _, ⟨e, _, rfl, _⟩ | ⟨dict, _, h2⟩⟩ := hab
      · exact ⟨fun _ => rfl, pool, hself, by rw [hent]⟩
      · refine ⟨fun h => absurd h1 h, ?_⟩
        obtain ⟨pool', h3, h4⟩ := (C34_unacceptable de pool hk (fun q => dictGet q dict) none).2
        refine ⟨pool', ?_, by rw [hent, h4]⟩
        rw [← h3, ← h2]; rfl

/-- what a finished task has done, if the converter reads first -/
theorem poolTask_done (hm : env.IsMapping) (ho : env.Overwrites) (hr : env.toApp.ReadsFirst) {de de' : DataElement} {r : PyRes Unit}
    (hpool : de.isValuePool = true) (h : PoolTaskOk env app de (.done de' r)) :
    (r = .ok () ∧ env.PoolReplaced app de de' ∧ ∀ e, ¬ env.PoolFails app de e) ∨ ∃ e, r = .error e ∧ env.PoolFails app de e := by
  obtain ⟨h1, rg, hend, ⟨e, rfl, _, rfl⟩ | ⟨dict, rfl, h2⟩⟩ := h
  · rcases C56_schedule_partial env app _ _ hm ho hr _ hend with ⟨e', he, hf⟩ | ⟨_, _, _, _, _, _, _, he, _⟩
    · cases he; exact .inr ⟨e, rfl, .generate hf⟩
    · cases he
  · rcases C56_schedule_partial env app _ _ hm ho hr _ hend with ⟨e', he, hf⟩ | ⟨hf, d, p, n, dict', g1, g2, he, g3⟩
    · cases he
    · cases he
      exact replace_described hm hpool hf g1 g2 g3 h2

/-- **C57 (partial)** if the converter reads what it needs before it awaits anything, then, under every schedule: if
`transform_all_value_pools` returns, exactly the value pools that are to be transformed have been replaced as described, and
none of them fails; if it raises, the exception is that of a value pool that fails. Missing: other converters, for which it is
false (`C57_counterexample`). -/
theorem C57_transform_partial (hm : env.IsMapping) (ho : env.Overwrites) (hr : env.toApp.ReadsFirst)
    (schedule : List (Nat × Choice)) (s : TopState A D) (h : topRun env app schedule (topInit env app ahb) = some s) :
    (s.outcome = some (.ok ()) →
      List.Forall₂ (fun de (t : PoolTask A D) =>
        (IsTransformed de → env.PoolReplaced app de t.pool ∧ ∀ e, ¬ env.PoolFails app de e) ∧
        (¬ IsTransformed de → t.pool = de)) ahb.getAllValuePools s.tasks) ∧
    (∀ e, s.outcome = some (.error e) → ∃ de ∈ ahb.getAllValuePools, IsTransformed de ∧ env.PoolFails app de e) := by
  have hinv := topInv_run h
  have hval : ∀ x ∈ ahb.getAllValuePools, x.isValuePool = true := fun x hx => ((C32_get_all_value_pools ahb).1 x hx).1
  constructor
  · intro hout
    unfold TopState.outcome at hout
    cases he : s.err with
    | some e => rw [he] at hout; cases hout
    | none =>
      rw [he] at hout
      simp only at hout
      split at hout
      · rename_i hall
        have hnone := hinv.none he
        have ht := hinv.tasks
        generalize ahb.getAllValuePools = pools at ht hval
        generalize s.tasks = tasks at ht hnone hall
        induction ht with
        | nil => exact .nil
        | cons hab _ ih =>
          rename_i de t pools tasks _
          rw [List.all_cons, Bool.and_eq_true] at hall
          refine .cons ?_ (ih (fun x hx => hval x (by simp [hx])) (fun t ht => hnone t (by simp [ht])) hall.2)
          cases t with
          | skipped de' => obtain ⟨rfl, h1⟩ := hab; exact ⟨fun h => absurd h h1, fun _ => rfl⟩
          | running de' g => exact absurd hall.1 (by simp)
          | done de' r =>
            refine ⟨fun _ => ?_, fun h => absurd hab.1 h⟩
            rcases poolTask_done env app hm ho hr (hval de (by simp)) hab with ⟨_, h2, h3⟩ | ⟨e, rfl, _⟩
            · exact ⟨h2, h3⟩
            · have := hnone _ (List.mem_cons_self); cases this
      · cases hout
  · intro e hout
    have he : s.err = some e := by
      unfold TopState.outcome at hout
      cases he : s.err with
      | some e' => rw [he] at hout; cases hout; rfl
      | none => rw [he] at hout; simp only at hout; split at hout <;> cases hout
    obtain ⟨t, ht, hte⟩ := hinv.some e he
    obtain ⟨i, hi⟩ := List.getElem?_of_mem ht
    have hlen := hinv.tasks.length_eq
    have hlt := (List.getElem?_eq_some_iff.1 hi).1
    have hde : ahb.getAllValuePools[i]? = some (ahb.getAllValuePools[i]'(by omega)) := List.getElem?_eq_getElem _
    have hab := forall₂_get hinv.tasks hde hi
    cases t with
    | skipped => cases hte
    | running => cases hte
    | done de' r =>
      cases r with
      | ok => cases hte
      | error e' =>
        cases hte
        have hmem := List.mem_of_getElem? hde
        refine ⟨_, hmem, hab.1, ?_⟩
        rcases poolTask_done env app hm ho hr (hval _ hmem) hab with ⟨h2, _⟩ | ⟨e, h2, h3⟩
        · cases h2
        · cases h2; exact h3

/-- **C57 (partial)** then any two schedules under which it returns lead to the same value pools. -/
theorem C57_same_result_partial (hm : env.IsMapping) (ho : env.Overwrites) (hr : env.toApp.ReadsFirst)
    (schedule schedule' : List (Nat × Choice)) (s s' : TopState A D)
    (h : topRun env app schedule (topInit env app ahb) = some s) (h' : topRun env app schedule' (topInit env app ahb) = some s')
    (hout : s.outcome = some (.ok ())) (hout' : s'.outcome = some (.ok ())) : s.tasks.map PoolTask.pool = s'.tasks.map PoolTask.pool := by
  have hall : ∀ s : TopState A D, s.outcome = some (.ok ()) → (∀ t ∈ s.tasks, ∀ de g, t ≠ .running de g) ∧ s.err = none := by
    intro s hout
    unfold TopState.outcome at hout
    cases he : s.err with
    | some e => rw [he] at hout; cases hout
    | none =>
      rw [he] at hout
      simp only at hout
      split at hout
      · rename_i hall
        refine ⟨fun t ht de g hg => ?_, rfl⟩
        have := List.all_eq_true.1 hall t ht
        rw [hg] at this
        cases this
      · cases hout
  have hval : ∀ x ∈ ahb.getAllValuePools, x.isValuePool = true := fun x hx => ((C32_get_all_value_pools ahb).1 x hx).1
  have i1 := topInv_run h
  have i2 := topInv_run h'
  obtain ⟨a1, e1⟩ := hall s hout
  obtain ⟨a2, e2⟩ := hall s' hout'
  have n1 := i1.none e1
  have n2 := i2.none e2
  have t1 := i1.tasks
  have t2 := i2.tasks
  generalize ahb.getAllValuePools = pools at t1 t2 hval
  generalize s.tasks = ts at t1 a1 n1
  generalize s'.tasks = ts' at t2 a2 n2
  induction t1 generalizing ts' with
  | nil => cases t2; rfl
  | cons hab _ ih =>
    cases t2 with
    | cons hab' t2 =>
      rename_i de t pools ts _ t' ts'
      rw [List.map_cons, List.map_cons, ih (fun x hx => hval x (by simp [hx])) (fun t ht => a1 t (by simp [ht]))
        (fun t ht => n1 t (by simp [ht])) _ t2 (fun t ht => a2 t (by simp [ht])) (fun t ht => n2 t (by simp [ht]))]
      congr 1
      cases t with
      | running de' g => exact absurd rfl (a1 _ List.mem_cons_self de' g)
      | skipped de' =>
        obtain ⟨rfl, h1⟩ := hab
        cases t' with
        | running de' g => exact absurd rfl (a2 _ List.mem_cons_self de' g)
        | skipped de'' => exact hab'.1.symm
        | done de'' r => exact absurd hab'.1 h1
      | done de' r =>
        cases t' with
        | running de' g => exact absurd rfl (a2 _ List.mem_cons_self de' g)
        | skipped de'' => exact absurd hab.1 hab'.2
        | done de'' r' =>
          have g1 := n1 _ List.mem_cons_self
          have g2 := n2 _ List.mem_cons_self
          obtain ⟨_, rg, hend, ⟨e, rfl, _, rfl⟩ | ⟨dict, rfl, h2⟩⟩ := hab
          · cases g1
          · obtain ⟨_, rg', hend', ⟨e, rfl, _, rfl⟩ | ⟨dict', rfl, h2'⟩⟩ := hab'
            · cases g2
            · have hf : ∀ e, ¬ env.Fails app de.discriminator de.poolEntries e := by
                rcases C56_schedule_partial env app _ _ hm ho hr _ hend with ⟨e', he, hf⟩ | ⟨hf, _⟩
                · cases he
                · exact hf
              have := C56_same_result_partial env app _ _ hm ho hr hf _ _ hend hend'
              cases this
              rw [← h2] at h2'
              cases h2'
              rfl

/-- **C57** every schedule comes to an end … -/
theorem C57_terminates : ¬ ∃ (states : Nat → TopState A D) (choices : Nat → Nat × Choice), states 0 = topInit env app ahb ∧
    ∀ i, topStep env app (choices i) (states i) = some (states (i + 1)) := by
  rintro ⟨f, c, h0, h⟩
  exact no_infinite (acc_top (env := env) (app := app) (topInit env app ahb)) ⟨f, h0, fun i => ⟨c i, h i⟩⟩

/-- **C57** … and never gets stuck: in a reachable state it has returned or raised, or a task can go on. -/
theorem C57_progress (schedule : List (Nat × Choice)) (s : TopState A D)
    (h : topRun env app schedule (topInit env app ahb) = some s) :
    (∃ r, s.outcome = some r) ∨ ∃ c s', topStep env app c s = some s' := by
  have hinv := topInv_run h
  cases hout : s.outcome with
  | some r => exact .inl ⟨r, rfl⟩
  | none =>
    right
    unfold TopState.outcome at hout
    cases he : s.err with
    | some e => rw [he] at hout; cases hout
    | none =>
      rw [he] at hout
      simp only at hout
      split at hout
      · cases hout
      · rename_i hall
        rw [List.all_eq_true] at hall
        simp only [not_forall] at hall
        obtain ⟨t, ht, hr⟩ := hall
        obtain ⟨i, hi⟩ := List.getElem?_of_mem ht
        have hlen := hinv.tasks.length_eq
        have hlt := (List.getElem?_eq_some_iff.1 hi).1
        have hde : ahb.getAllValuePools[i]? = some (ahb.getAllValuePools[i]'(by omega)) := List.getElem?_eq_getElem _
        have hab := forall₂_get hinv.tasks hde hi
        cases t with
        | skipped => exact absurd rfl hr
        | done => exact absurd rfl hr
        | running de g =>
          obtain ⟨h1, h2, h3, cs, h4⟩ := hab
          rcases C56_progress env app _ _ cs g h4 with ⟨r, hf⟩ | ⟨c, g', hg⟩
          · exact absurd hf (h3 r)
          · refine ⟨(i, c), { tasks := s.tasks.set i (afterGenStep de g'), err := s.err.or (afterGenStep de g').error? }, ?_⟩
            unfold topStep
            rw [hi]
            simp only
            rw [h1, hg]

end

/-! ## examples and counterexample -/

def transformDe : DataElement := { exPoolDe with discriminator := some py!"$" }
def senderDe : DataElement := { exPoolDe with discriminator := some py!"$[\"Absender\"]" }
def transformAhb : DeepAhb :=
  { ahbMeta := { pruefidentifikator := py!"11042" },
    lines := [.mk (some py!"root") py!"X" (some 0) (some [⟨some py!"NAD", py!"Soll", some 4, [transformDe, exTextDe', senderDe], none, none⟩]) none] }

theorem transformAhb_pools : transformAhb.getAllValuePools = [transformDe, senderDe] := by decide +kernel

/-- the outcome and the value pools after a schedule -/
def topSummary {A D : Type} (o : Option (TopState A D)) : Option (Option (PyRes Unit) × List DataElement) :=
  o.map fun s => (s.outcome, s.tasks.map PoolTask.pool)

def topRaceSchedule : List (Nat × Choice) := raceSchedule.map fun c => (0, c)

/-- **C57** in asyncio's own order a converter that awaits before it reads makes the code write a wrong qualifier into the value pool. -/
theorem C57_counterexample : ¬ C57_statement := by
  intro h
  have hsum : topSummary (topRun raceEnv py!"E01" topRaceSchedule (topInit raceEnv py!"E01" transformAhb)) =
      some (some (.ok ()), [{ transformDe with kind := .valuePool [⟨py!"E03", py!"Einzug", py!"X"⟩, ⟨py!"E03", py!"Wechsel", py!"X [1]"⟩] }, senderDe]) := by
    decide +kernel
  cases hrun : topRun raceEnv py!"E01" topRaceSchedule (topInit raceEnv py!"E01" transformAhb) with
  | none => rw [hrun] at hsum; cases hsum
  | some s =>
    rw [hrun] at hsum
    simp only [topSummary, Option.map_some, Option.some.injEq, Prod.mk.injEq] at hsum
    have := h _ _ raceEnv py!"E01" transformAhb (by simp [TransformEnv.IsMapping, raceEnv]) (fun _ _ _ _ => rfl) topRaceSchedule s hrun hsum.1
    rw [transformAhb_pools] at this
    obtain ⟨ts, hs⟩ : ∃ ts, s.tasks = ts := ⟨_, rfl⟩
    rw [hs] at this hsum
    cases this with
    | cons h1 _ =>
      rename_i t ts _
      obtain ⟨d, p, n, pool', e1, e2, e3, _, e5⟩ := h1.1 ⟨[], rfl, by decide, by decide⟩
      rw [(List.cons.inj hsum.2).1] at e3
      obtain ⟨new, e6, _, e8⟩ := (e5 0 ⟨py!"E01", py!"Einzug", py!"X"⟩ rfl).2 (fun j e' hj he' => by
        rcases j with _ | _ | j
        · omega
        · cases he'; decide
        · cases he')
      cases e6
      have := congrArg DataElement.kind e3
      cases this
      cases e8

/-- two schedules of a converter that reads first: the pool in question gets the application values, the other one is left alone -/
example : topSummary (topRun goodEnv py!"E07" (([.self, .entry 0, .entry 1, .entry 1, .entry 1, .entry 0, .entry 0, .self] : List Choice).map fun c => (0, c))
      (topInit goodEnv py!"E07" transformAhb)) =
    some (some (.ok ()), [{ transformDe with kind := .valuePool [⟨py!"ZE01", py!"Einzug", py!"X"⟩, ⟨py!"ZE03", py!"Wechsel", py!"X [1]"⟩] }, senderDe]) := by
  decide +kernel
/-- an AHB with a value pool that is not in the mapping: it raises -/
example : topSummary (topRun goodEnv py!"E07" [(0, .self)] (topInit goodEnv py!"E07" exDeep)) = some (some (.error .valueError), [exPoolDe]) := by
  decide +kernel
end Verif
