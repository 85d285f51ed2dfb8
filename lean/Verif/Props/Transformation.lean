import Verif.Proofs.Transformation
import Verif.Props.Components
/-!
# Property C56: generating the replacement of a value pool, under every schedule
-/

namespace Verif

section
variable {A D : Type}

/-- **C56 (in full, false of the code)** under every schedule the result is the replacement described in the docstring, if no
conversion and no access fails. -/
def C56_statement : Prop :=
  ∀ (A D : Type) (env : TransformEnv A D) (app : A) (discriminator : Option PyStr) (pool : List ValuePoolEntry) (d : D)
    (ediPath nonEdiPath : PyStr) (v v' : Option PyStr), env.IsMapping → env.Overwrites → (env.toEdi app).alone () = .ok d →
    env.Maps discriminator ediPath nonEdiPath → env.appGet app nonEdiPath = .ok v → env.ediGet d ediPath = .ok v' →
    (∀ q ∈ qualifiersOf pool, ∃ w, env.valueFor d ediPath nonEdiPath q = .ok w) →
    ∀ r, env.EndsWith app discriminator pool r → ∃ dict, r = .ok dict ∧ DictIs dict (env.Replacement app pool d ediPath nonEdiPath)

/-- a converter that awaits something before it reads the edifact data; it never modifies the data -/
def raceEnv : TransformEnv PyStr PyStr where
  toEdi a := .ret (.ok a)
  toApp := .suspend (.op id fun d => .ret (.ok d))
  ediGet d _ := .ok (some d)
  ediSet _ _ q := (q, .ok ())
  appGet a _ := .ok (some a)
  mapping := [(py!"$", py!"$")]

def racePool : List ValuePoolEntry := [⟨py!"E01", py!"Einzug", py!"X"⟩, ⟨py!"E03", py!"Wechsel", py!"X"⟩]

/-- the order in which asyncio's event loop proceeds if both conversions wait once: the first entry is mapped to the value of
the second one -/
def raceSchedule : List Choice := [.self, .entry 0, .entry 1, .entry 0, .entry 1, .self]

/-- what the call has returned -/
def GenState.result? : GenState A D → Option (PyRes (List (PyStr × Option PyStr)))
  | .finished r => some r
  | _ => none

theorem finished_of_result {o : Option (GenState A D)} {r : PyRes (List (PyStr × Option PyStr))} (h : (o.bind GenState.result?) = some r) :
    o = some (.finished r) := by
  cases o with
  | none => cases h
  | some s =>
    cases s with
    | finished r' => cases h; rfl
    | converting => cases h
    | gathering => cases h

theorem race_result : raceEnv.EndsWith py!"E01" (some py!"$") racePool
    (.ok [(py!"E01", some py!"E03"), (py!"E03", some py!"E03")]) :=
  ⟨raceSchedule, finished_of_result (by decide +kernel)⟩

theorem race_other_result : raceEnv.EndsWith py!"E01" (some py!"$") racePool
    (.ok [(py!"E01", some py!"E01"), (py!"E03", some py!"E03")]) :=
  ⟨[.self, .entry 0, .entry 0, .entry 1, .entry 1, .self], finished_of_result (by decide +kernel)⟩

/-- **C56** all tasks work on the same object: if the converter awaits something before it reads, the result depends on the
schedule, and in asyncio's own order it is wrong. -/
theorem C56_counterexample : ¬ C56_statement := by
  intro h
  obtain ⟨dict, hd, _, h2⟩ := h PyStr PyStr raceEnv py!"E01" (some py!"$") racePool py!"E01" py!"$" py!"$" (some py!"E01")
    (some py!"E01") (by simp [TransformEnv.IsMapping, raceEnv]) (fun _ _ _ _ => rfl) rfl ⟨rfl, by simp [raceEnv]⟩ rfl rfl
    (fun q _ => ⟨some q, rfl⟩) _ race_result
  cases hd
  have := (h2 py!"E01" (some py!"E03")).1 (by simp)
  rcases this with ⟨_, h3⟩ | ⟨h3, _⟩
  · have h4 : raceEnv.valueFor py!"E01" py!"$" py!"$" py!"E01" = .ok (some py!"E01") := rfl
    rw [h4] at h3
    exact absurd h3 (by decide)
  · exact h3 (by decide)

variable (env : TransformEnv A D) (app : A) (discriminator : Option PyStr) (pool : List ValuePoolEntry)

/-- **C56 (partial)** if the converter reads what it needs before it awaits anything, the result is the described replacement
under every schedule; it raises iff something fails, and then the exception of a failure. Missing: other converters, for which
it is false (`C56_counterexample`). -/
theorem C56_schedule_partial (hm : env.IsMapping) (ho : env.Overwrites) (hr : env.toApp.ReadsFirst)
    (r : PyRes (List (PyStr × Option PyStr))) (h : env.EndsWith app discriminator pool r) :
    (∃ e, r = .error e ∧ env.Fails app discriminator pool e) ∨
    ((∀ e, ¬ env.Fails app discriminator pool e) ∧ ∃ d ediPath nonEdiPath dict, (env.toEdi app).alone () = .ok d ∧
      env.Maps discriminator ediPath nonEdiPath ∧ r = .ok dict ∧ DictIs dict (env.Replacement app pool d ediPath nonEdiPath)) := by
  obtain ⟨cs, h⟩ := h
  have hinv := genInv_run (J := ReadsInv env) (fun d p n _ => readsInv_init d p n)
    (fun _ _ _ _ _ _ _ _ _ h ht hst => readsInv_step hr ho h ht hst) h
  rcases result_of_reads (fun d p n data tasks hJ q r hm => by
    rcases hJ.2 _ hm with ⟨q', h⟩ | ⟨q', c, h, _⟩ | ⟨q', h⟩
    · cases h
    · cases h
    · cases h; rfl) hinv with h | ⟨d, p, n, v, v', dict, h1, h2, h3, h4, h5, h6, h7, h8, _⟩
  · exact .inl h
  · exact .inr ⟨fails_not_ok hm h2 h4 h5 h6 h7, d, p, n, dict, h2, h3, h1, h8⟩

/-- **C56 (partial)** then any two schedules give the same dictionary, even with the same order of its keys. -/
theorem C56_same_result_partial (hm : env.IsMapping) (ho : env.Overwrites) (hr : env.toApp.ReadsFirst)
    (hf : ∀ e, ¬ env.Fails app discriminator pool e) (r r' : PyRes (List (PyStr × Option PyStr)))
    (h : env.EndsWith app discriminator pool r) (h' : env.EndsWith app discriminator pool r') : r = r' := by
  have key : ∀ r, env.EndsWith app discriminator pool r → ∃ d p n v v', (env.toEdi app).alone () = .ok d ∧
      env.Maps discriminator p n ∧ env.appGet app n = .ok v ∧ env.ediGet d p = .ok v' ∧
      r = .ok (dictUpdate (startDict v' v) (((qualifiersOf pool).map fun q =>
        (.finished q (env.valueFor d p n q) : EntryTask A D)).filterMap EntryTask.result?)) := by
    rintro r ⟨cs, h⟩
    have hinv := genInv_run (J := ReadsInv env) (fun d p n _ => readsInv_init d p n)
      (fun _ _ _ _ _ _ _ _ _ h ht hst => readsInv_step hr ho h ht hst) h
    rcases result_of_reads (fun d p n data tasks hJ q r hm => by
      rcases hJ.2 _ hm with ⟨q', h⟩ | ⟨q', c, h, _⟩ | ⟨q', h⟩
      · cases h
      · cases h
      · cases h; rfl) hinv with ⟨e, _, h⟩ | ⟨d, p, n, v, v', dict, h1, h2, h3, h4, h5, h6, h7, h8, ts, h9, h10, h11⟩
    · exact absurd h (hf e)
    · exact ⟨d, p, n, v, v', h2, h3, h5, h6, by rw [h1, h11, h10]⟩
  obtain ⟨d, p, n, v, v', h1, h2, h3, h4, rfl⟩ := key r h
  obtain ⟨d2, p2, n2, v2, v2', g1, g2, g3, g4, rfl⟩ := key r' h'
  rw [h1] at g1
  cases g1
  have h5 := maps_find hm h2
  rw [maps_find hm g2] at h5
  cases h5
  rw [h3] at g3
  cases g3
  rw [h4] at g4
  cases g4
  rfl

/-- **C56 (partial)** a pool with at most one entry: the described replacement, whatever the converter does. -/
theorem C56_single_partial (hm : env.IsMapping) (hp : pool.length ≤ 1) (r : PyRes (List (PyStr × Option PyStr)))
    (h : env.EndsWith app discriminator pool r) :
    (∃ e, r = .error e ∧ env.Fails app discriminator pool e) ∨
    ((∀ e, ¬ env.Fails app discriminator pool e) ∧ ∃ d ediPath nonEdiPath dict, (env.toEdi app).alone () = .ok d ∧
      env.Maps discriminator ediPath nonEdiPath ∧ r = .ok dict ∧ DictIs dict (env.Replacement app pool d ediPath nonEdiPath)) := by
  obtain ⟨cs, h⟩ := h
  have hinv := genInv_run (J := SingleInv env) (fun d p n _ => singleInv_init hp d p n)
    (fun _ _ _ _ _ _ _ _ _ h ht hst => singleInv_step h ht hst) h
  rcases result_of_reads (fun d p n data tasks hJ q r hm => by
    rcases hJ with rfl | ⟨q', rfl, _⟩ | ⟨q', c, rfl, _⟩ | ⟨q', rfl⟩
    · cases hm
    · simp at hm
    · simp at hm
    · simp only [List.mem_singleton, EntryTask.finished.injEq] at hm
      rw [hm.1, hm.2]) hinv with h | ⟨d, p, n, v, v', dict, h1, h2, h3, h4, h5, h6, h7, h8, _⟩
  · exact .inl h
  · exact .inr ⟨fails_not_ok hm h2 h4 h5 h6 h7, d, p, n, dict, h2, h3, h1, h8⟩

/-- **C56** for every converter and schedule: the keys of the result are the qualifiers of the pool and the current value. -/
theorem C56_keys (dict : List (PyStr × Option PyStr)) (h : env.EndsWith app discriminator pool (.ok dict)) :
    (dict.map Prod.fst).Nodup ∧ ∃ d ediPath nonEdiPath v', (env.toEdi app).alone () = .ok d ∧ env.Maps discriminator ediPath nonEdiPath ∧
      env.ediGet d ediPath = .ok v' ∧ ∀ k, k ∈ dict.map Prod.fst ↔ k ∈ qualifiersOf pool ∨ v' = some k := by
  obtain ⟨cs, h⟩ := h
  have hinv := genInv_run (J := fun _ _ _ _ _ => True) (fun _ _ _ _ => trivial) (fun _ _ _ _ _ _ _ _ _ _ _ _ => trivial) h
  rcases hinv with ⟨e, he, _⟩ | ⟨p, n, cur, data, tasks, d, v, v', hg, ⟨e, he, _⟩ | ⟨he, hall⟩⟩
  · cases he
  · cases he
  · cases he
    have hkeys : (tasks.filterMap EntryTask.result?).map Prod.fst = qualifiersOf pool := by rw [results_eq hall, hg.quals]
    refine ⟨by rw [hg.cur_eq]; exact nodup_dictUpdate (nodup_startDict _ _), d, p, n, v', hg.toEdi, find_maps hg.find, hg.ediGet, ?_⟩
    intro k
    have hk : ∀ (ps cur : List (PyStr × Option PyStr)), k ∈ (dictUpdate cur ps).map Prod.fst ↔ k ∈ ps.map Prod.fst ∨ k ∈ cur.map Prod.fst := by
      intro ps
      induction ps with
      | nil => intro cur; simp [dictUpdate]
      | cons x ps ih =>
        intro cur
        show k ∈ (dictUpdate (dictSet x.1 x.2 cur) ps).map Prod.fst ↔ _
        rw [ih, mem_keys_dictSet]
        simp only [List.map_cons, List.mem_cons]
        tauto
    rw [hk, hkeys, hg.cur_eq]
    have : k ∈ (startDict v' v).map Prod.fst ↔ v' = some k := by
      unfold startDict
      cases v' with
      | none => simp
      | some x => simp [eq_comm]
    rw [this]

/-- **C56** for every converter and schedule: if nothing else raises, it raises iff the path mapping has no entry for the
discriminator, and then a `ValueError`. -/
theorem C56_value_error (h1 : (env.toEdi app).NeverRaises) (h2 : env.toApp.NeverRaises) (h3 : ∀ a p, ∃ v, env.appGet a p = .ok v)
    (h4 : ∀ d p, ∃ v, env.ediGet d p = .ok v) (h5 : ∀ d p q, (env.ediSet d p q).2 = .ok ())
    (r : PyRes (List (PyStr × Option PyStr))) (h : env.EndsWith app discriminator pool r) :
    (∀ e, r = .error e → e = .valueError) ∧ (r = .error .valueError ↔ ∀ p ∈ env.mapping, discriminator ≠ some p.1) := by
  obtain ⟨cs, h⟩ := h
  have halone : ∀ c : Conv Unit D, c.NeverRaises → ∀ u, ∃ d, c.alone u = .ok d := by
    intro c hc
    induction hc with
    | ret a => exact fun _ => ⟨a, rfl⟩
    | op _ ih => exact fun u => ih u _
    | suspend _ ih => exact ih
  obtain ⟨d0, hd0⟩ := halone _ h1 ()
  have hres : ∀ n q c data, c.NeverRaises → (resumeEntry env n q c data).2.error? = none ∧
      ∀ q' c', (resumeEntry env n q c data).2 = .running q' c' → c'.NeverRaises := by
    intro n q c data hc
    have := Conv.segment_neverRaises hc data
    unfold resumeEntry
    revert this
    rcases c.segment data with ⟨d1, r | k⟩ <;> intro this
    · obtain ⟨a, rfl⟩ := this
      obtain ⟨v, hv⟩ := h3 a n
      simp only [hv]
      exact ⟨rfl, fun _ _ h => by cases h⟩
    · exact ⟨rfl, fun _ _ h => by cases h; exact this⟩
  have hinv := genInv_run (J := fun _ _ _ _ tasks => ∀ t ∈ tasks, t.error? = none ∧ ∀ q c, t = .running q c → c.NeverRaises)
    (fun d p n _ t ht => by
      obtain ⟨e, _, rfl⟩ := List.mem_map.1 ht
      exact ⟨rfl, fun _ _ h => by cases h⟩)
    (fun d p n data tasks i t data' t' hJ ht hst x hx => by
      rcases List.mem_or_eq_of_mem_set hx with hx | rfl
      · exact hJ x hx
      · cases t with
        | finished => cases hst
        | pending q =>
          simp only [entryStep] at hst
          have := h5 data p q
          rcases hset : env.ediSet data p q with ⟨d1, r1⟩
          rw [hset] at hst this
          simp only at this
          subst this
          simp only [Option.some.injEq] at hst
          have h6 := hres n q env.toApp d1 h2
          rw [hst] at h6
          exact h6
        | running q c =>
          simp only [entryStep, Option.some.injEq] at hst
          have h6 := hres n q c data ((hJ _ (List.mem_of_getElem? ht)).2 q c rfl)
          rw [hst] at h6
          exact h6) h
  rcases hinv with ⟨e, rfl, he⟩ | ⟨p, n, cur, data, tasks, d, v, v', hg, ⟨e, rfl, t, ht, hte⟩ | ⟨rfl, hall⟩⟩
  · cases he with
    | toEdi h => rw [hd0] at h; cases h
    | unmapped g1 g2 => exact ⟨fun e h => by cases h; rfl, fun _ => find_unmapped.1 g2, fun _ => rfl⟩
    | appGet g1 g2 g3 => obtain ⟨v, hv⟩ := h3 app _; rw [hv] at g3; cases g3
    | ediGet g1 g2 g3 g4 => obtain ⟨v, hv⟩ := h4 _ _; rw [hv] at g4; cases g4
  · rw [(hg.inv t ht).1] at hte; cases hte
  · refine ⟨fun e h => (by cases h), (fun h => (by cases h)), fun h => ?_⟩
    have := hg.find
    rw [find_unmapped.2 h] at this
    cases this

/-- **C56** every schedule comes to an end: there is no infinite one. -/
theorem C56_terminates : ¬ ∃ (states : Nat → GenState A D) (choices : Nat → Choice), states 0 = genInit env app ∧
    ∀ i, genStep env app discriminator pool (choices i) (states i) = some (states (i + 1)) := by
  rintro ⟨f, c, h0, h⟩
  exact no_infinite (acc_gen (env := env) (app := app) (discriminator := discriminator) (pool := pool) (genInit env app))
    ⟨f, h0, fun i => ⟨c i, h i⟩⟩

/-- **C56** it never gets stuck: a reachable state is finished, or something can go on. -/
theorem C56_progress (schedule : List Choice) (s : GenState A D)
    (h : genRun env app discriminator pool schedule (genInit env app) = some s) :
    (∃ r, s = .finished r) ∨ ∃ c s', genStep env app discriminator pool c s = some s' := by
  by_cases hf : ∃ r, s = .finished r
  · exact .inl hf
  · exact .inr (gen_progress (genInv_run (J := fun _ _ _ _ _ => True) (fun _ _ _ _ => trivial)
      (fun _ _ _ _ _ _ _ _ _ _ _ _ => trivial) h) (fun r hr => hf ⟨r, hr⟩))

end

/-! ## examples for C56 -/

/-- the hypotheses of the partial theorem hold for a converter that reads the data, awaits something twice and then returns -/
def goodEnv : TransformEnv PyStr PyStr :=
  { raceEnv with toApp := .op id fun d => .suspend (.suspend (.ret (.ok (py!"Z" ++ d)))) }

example : goodEnv.IsMapping ∧ goodEnv.Overwrites ∧ goodEnv.toApp.ReadsFirst :=
  ⟨by simp [TransformEnv.IsMapping, goodEnv, raceEnv], fun _ _ _ _ => rfl,
    fun d => .inr ⟨_, rfl, .suspend .ret⟩⟩
example : goodEnv.EndsWith py!"E07" (some py!"$") racePool
    (.ok [(py!"E07", some py!"E07"), (py!"E01", some py!"ZE01"), (py!"E03", some py!"ZE03")]) :=
  ⟨[.self, .entry 0, .entry 1, .entry 0, .entry 1, .entry 1, .entry 0, .self], finished_of_result (by decide +kernel)⟩
example : goodEnv.EndsWith py!"E07" (some py!"$x") racePool (.error .valueError) :=
  ⟨[.self], finished_of_result (by decide +kernel)⟩
example : goodEnv.toApp.NeverRaises ∧ (goodEnv.toEdi py!"E07").NeverRaises :=
  ⟨.op fun _ => .suspend (.suspend (.ret _)), .ret _⟩

end Verif
