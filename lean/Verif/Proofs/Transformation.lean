import Verif.Spec.Transformation
import Verif.Proofs.Dict
import Mathlib.Data.List.Forall2
import Mathlib.Tactic.Tauto
/-!
# Invariants of the value pool transformation
-/

namespace Verif

section
variable {A D R : Type}

theorem Conv.segment_alone (c : Conv D R) (d : D) :
    c.alone d = match c.segment d with
      | (_, .inl r) => r
      | (d', .inr k) => k.alone d' := by
  induction c generalizing d with
  | ret r => rfl
  | op f k ih => exact ih d (f d)
  | suspend k ih => rfl

theorem Conv.settled_segment {r : PyRes R} {c : Conv D R} (h : c.Settled r) (d : D) :
    c.segment d = (d, .inl r) ∨ ∃ k, c.segment d = (d, .inr k) ∧ k.Settled r := by
  cases h with
  | ret => exact .inl rfl
  | suspend h => exact .inr ⟨_, rfl, h⟩

theorem Conv.segment_neverRaises {c : Conv D R} (h : c.NeverRaises) (d : D) :
    match c.segment d with
      | (_, .inl r) => ∃ a, r = .ok a
      | (_, .inr k) => k.NeverRaises := by
  induction h generalizing d with
  | ret a => exact ⟨a, rfl⟩
  | op _ ih => exact ih d _
  | suspend h _ => exact h

/-- the qualifier of a task -/
def EntryTask.qualifier : EntryTask A D → PyStr
  | .pending q => q
  | .running q _ => q
  | .finished q _ => q

variable (env : TransformEnv A D) (app : A) (discriminator : Option PyStr) (pool : List ValuePoolEntry)

/-- the mapping before the tasks are started -/
def startDict (ediValue nonEdiValue : Option PyStr) : List (PyStr × Option PyStr) :=
  match ediValue with
  | none => []
  | some x => [(x, nonEdiValue)]

/-- what holds while and after the tasks are executed; `J` is about the initial object, the paths, the object, the tasks -/
structure GatherInv (J : D → PyStr → PyStr → D → List (EntryTask A D) → Prop) (p n : PyStr) (cur : List (PyStr × Option PyStr)) (data : D)
    (tasks : List (EntryTask A D)) (d : D) (v v' : Option PyStr) : Prop where
  toEdi : (env.toEdi app).alone () = .ok d
  find : (env.mapping.find? fun x => decide (some x.1 = discriminator)) = some (p, n)
  appGet : env.appGet app n = .ok v
  ediGet : env.ediGet d p = .ok v'
  cur_eq : cur = startDict v' v
  quals : tasks.map EntryTask.qualifier = qualifiersOf pool
  inv : J d p n data tasks

/-- failures before the tasks are started -/
inductive EarlyFail : Exc → Prop
  | toEdi {e : Exc} : (env.toEdi app).alone () = .error e → EarlyFail e
  | unmapped {d : D} : (env.toEdi app).alone () = .ok d → (env.mapping.find? fun x => decide (some x.1 = discriminator)) = none → EarlyFail .valueError
  | appGet {d : D} {p n : PyStr} {e : Exc} : (env.toEdi app).alone () = .ok d → (env.mapping.find? fun x => decide (some x.1 = discriminator)) = some (p, n) →
      env.appGet app n = .error e → EarlyFail e
  | ediGet {d : D} {p n : PyStr} {e : Exc} {v : Option PyStr} : (env.toEdi app).alone () = .ok d →
      (env.mapping.find? fun x => decide (some x.1 = discriminator)) = some (p, n) → env.appGet app n = .ok v → env.ediGet d p = .error e → EarlyFail e

/-- the invariant of `generate_value_pool_replacement` -/
def GenInv (J : D → PyStr → PyStr → D → List (EntryTask A D) → Prop) : GenState A D → Prop
  | .converting c => c.alone () = (env.toEdi app).alone ()
  | .gathering p n cur data tasks err => ∃ d v v', GatherInv env app discriminator pool J p n cur data tasks d v v' ∧
      (err = none → ∀ t ∈ tasks, t.error? = none) ∧ ∀ e, err = some e → ∃ t ∈ tasks, t.error? = some e
  | .finished r => (∃ e, r = .error e ∧ EarlyFail env app discriminator e) ∨
      ∃ p n cur data tasks d v v', GatherInv env app discriminator pool J p n cur data tasks d v v' ∧
        ((∃ e, r = .error e ∧ ∃ t ∈ tasks, t.error? = some e) ∨
          (r = .ok (dictUpdate cur (tasks.filterMap EntryTask.result?)) ∧ ∀ t ∈ tasks, t.result?.isSome = true))

variable {env app discriminator pool}

theorem resumeEntry_qualifier (n q : PyStr) (c : Conv D A) (d : D) : (resumeEntry env n q c d).2.qualifier = q := by
  unfold resumeEntry
  split <;> rfl

theorem entryStep_qualifier {p n : PyStr} {d d' : D} {t t' : EntryTask A D} (h : entryStep env p n d t = some (d', t')) :
    t'.qualifier = t.qualifier := by
  cases t with
  | finished => cases h
  | running q c =>
    simp only [entryStep, Option.some.injEq] at h
    have := resumeEntry_qualifier (env := env) n q c d
    rw [h] at this
    exact this
  | pending q =>
    simp only [entryStep] at h
    split at h
    · simp only [Option.some.injEq, Prod.mk.injEq] at h
      rw [← h.2]; rfl
    · rename_i d1 _
      simp only [Option.some.injEq] at h
      have := resumeEntry_qualifier (env := env) n q env.toApp d1
      rw [h] at this
      exact this

theorem entryStep_error {p n : PyStr} {d d' : D} {t t' : EntryTask A D} (h : entryStep env p n d t = some (d', t')) :
    t.error? = none := by
  cases t with
  | finished => cases h
  | running q c => rfl
  | pending q => rfl

theorem map_set_eq {α β : Type} (f : α → β) {l : List α} {i : Nat} {x y : α} (hx : l[i]? = some x) (h : f y = f x) :
    (l.set i y).map f = l.map f := by
  rw [List.map_set]
  apply List.ext_getElem?
  intro j
  rw [List.getElem?_set]
  split
  · rename_i hij
    subst hij
    split
    · rename_i hlt
      simp only [List.getElem?_map, hx, Option.map_some, h]
    · rename_i hlt
      exfalso
      have := (List.getElem?_eq_some_iff.1 hx).1
      simp at hlt
      omega
  · rfl

theorem genInv_step {J : D → PyStr → PyStr → D → List (EntryTask A D) → Prop}
    (hinit : ∀ d p n, (env.toEdi app).alone () = .ok d → J d p n d (pool.map fun e => .pending e.qualifier))
    (hstep : ∀ d p n data tasks i t data' t', J d p n data tasks → tasks[i]? = some t → entryStep env p n data t = some (data', t') →
      J d p n data' (tasks.set i t'))
    {c : Choice} {s s' : GenState A D} (hs : GenInv env app discriminator pool J s)
    (h : genStep env app discriminator pool c s = some s') : GenInv env app discriminator pool J s' := by
  have hquals : (pool.map fun e => (EntryTask.pending e.qualifier : EntryTask A D)).map EntryTask.qualifier = qualifiersOf pool := by
    rw [List.map_map]; rfl
  have hnone : ∀ t ∈ (pool.map fun e => (EntryTask.pending e.qualifier : EntryTask A D)), t.error? = none := by
    intro t ht
    obtain ⟨e, _, rfl⟩ := List.mem_map.1 ht
    rfl
  cases s with
  | converting co =>
    cases c with
    | entry => cases h
    | self =>
      have hal : co.alone () = (env.toEdi app).alone () := hs
      rw [Conv.segment_alone] at hal
      simp only [genStep] at h
      rcases hseg : co.segment () with ⟨u, r | k⟩
      · rw [hseg] at h hal
        simp only at h hal
        cases r with
        | error e =>
          simp only [Option.some.injEq] at h
          subst h
          exact .inl ⟨e, rfl, .toEdi hal.symm⟩
        | ok d =>
          simp only [Option.some.injEq] at h
          subst h
          have hd := hal.symm
          unfold beginGather
          cases hf : env.mapping.find? fun x => decide (some x.1 = discriminator) with
          | none => exact .inl ⟨_, rfl, .unmapped hd hf⟩
          | some pn =>
            obtain ⟨p, n⟩ := pn
            simp only
            cases ha : env.appGet app n with
            | error e => exact .inl ⟨_, rfl, .appGet hd hf ha⟩
            | ok v =>
              simp only
              cases he : env.ediGet d p with
              | error e => exact .inl ⟨_, rfl, .ediGet hd hf ha he⟩
              | ok v' =>
                cases v' with
                | none => exact ⟨d, v, none, ⟨hd, hf, ha, he, rfl, hquals, hinit d p n hd⟩, fun _ => hnone, fun e h => by cases h⟩
                | some x => exact ⟨d, v, some x, ⟨hd, hf, ha, he, rfl, hquals, hinit d p n hd⟩, fun _ => hnone, fun e h => by cases h⟩
      · rw [hseg] at h hal
        simp only at h hal
        simp only [Option.some.injEq] at h
        subst h
        exact hal
  | gathering p n cur data tasks err =>
    obtain ⟨d, v, v', hg, he1, he2⟩ := hs
    cases c with
    | entry i =>
      simp only [genStep] at h
      cases ht : tasks[i]? with
      | none => rw [ht] at h; cases h
      | some t =>
        rw [ht] at h
        simp only at h
        cases hst : entryStep env p n data t with
        | none => rw [hst] at h; cases h
        | some r =>
          obtain ⟨data', t'⟩ := r
          rw [hst] at h
          simp only [Option.some.injEq] at h
          subst h
          have hlt := (List.getElem?_eq_some_iff.1 ht).1
          refine ⟨d, v, v', ⟨hg.toEdi, hg.find, hg.appGet, hg.ediGet, hg.cur_eq, ?_, hstep _ _ _ _ _ _ _ _ _ hg.inv ht hst⟩, ?_, ?_⟩
          · rw [map_set_eq _ ht (entryStep_qualifier hst)]
            exact hg.quals
          · intro h0 x hx
            rw [Option.or_eq_none_iff] at h0
            rcases List.mem_or_eq_of_mem_set hx with hx | rfl
            · exact he1 h0.1 x hx
            · exact h0.2
          · intro e h0
            cases err with
            | none =>
              rw [Option.none_or] at h0
              exact ⟨t', List.mem_set hlt _, h0⟩
            | some e' =>
              rw [Option.some_or] at h0
              obtain ⟨x, hx, hxe⟩ := he2 e h0
              refine ⟨x, ?_, hxe⟩
              obtain ⟨j, hj⟩ := List.getElem?_of_mem hx
              apply List.mem_of_getElem? (i := j)
              rw [List.getElem?_set_ne, hj]
              rintro rfl
              rw [ht] at hj
              cases hj
              rw [entryStep_error hst] at hxe
              cases hxe
    | self =>
      simp only [genStep] at h
      cases err with
      | some e =>
        simp only [Option.some.injEq] at h
        subst h
        exact .inr ⟨p, n, cur, data, tasks, d, v, v', hg, .inl ⟨e, rfl, he2 e rfl⟩⟩
      | none =>
        simp only at h
        split at h
        · rename_i hall
          simp only [Option.some.injEq] at h
          subst h
          exact .inr ⟨p, n, cur, data, tasks, d, v, v', hg, .inr ⟨rfl, List.all_eq_true.1 hall⟩⟩
        · cases h
  | finished r => cases c <;> cases h

theorem genInv_run {J : D → PyStr → PyStr → D → List (EntryTask A D) → Prop}
    (hinit : ∀ d p n, (env.toEdi app).alone () = .ok d → J d p n d (pool.map fun e => .pending e.qualifier))
    (hstep : ∀ d p n data tasks i t data' t', J d p n data tasks → tasks[i]? = some t → entryStep env p n data t = some (data', t') →
      J d p n data' (tasks.set i t'))
    {cs : List Choice} {s' : GenState A D}
    (h : genRun env app discriminator pool cs (genInit env app) = some s') : GenInv env app discriminator pool J s' := by
  have key : ∀ (cs : List Choice) (s : GenState A D), GenInv env app discriminator pool J s →
      genRun env app discriminator pool cs s = some s' → GenInv env app discriminator pool J s' := by
    intro cs
    induction cs with
    | nil => intro s hs h; cases h; exact hs
    | cons c cs ih =>
      intro s hs h
      simp only [genRun] at h
      cases hst : genStep env app discriminator pool c s with
      | none => rw [hst] at h; cases h
      | some s1 =>
        rw [hst] at h
        exact ih s1 (genInv_step hinit hstep hs hst) h
  exact key cs (genInit env app) (rfl : (env.toEdi app).alone () = _) h

/-! ## converters that read first -/

/-- what is known about a task if the converter reads before it suspends -/
def TaskReads (env : TransformEnv A D) (d : D) (p n : PyStr) (t : EntryTask A D) : Prop :=
  (∃ q, t = .pending q) ∨
  (∃ q c, t = .running q c ∧ (env.ediSet d p q).2 = .ok () ∧ c.Settled (env.toApp.alone (env.ediSet d p q).1)) ∨
  ∃ q, t = .finished q (env.valueFor d p n q)

/-- the joint invariant for such converters -/
def ReadsInv (env : TransformEnv A D) (d : D) (p n : PyStr) (data : D) (tasks : List (EntryTask A D)) : Prop :=
  (data = d ∨ ∃ q, data = (env.ediSet d p q).1) ∧ ∀ t ∈ tasks, TaskReads env d p n t

theorem set_of_data {d data : D} {p : PyStr} (ho : env.Overwrites) (h : data = d ∨ ∃ q, data = (env.ediSet d p q).1) (q : PyStr) :
    env.ediSet data p q = env.ediSet d p q := by
  rcases h with rfl | ⟨q', rfl⟩
  · rfl
  · exact ho d p q' q

theorem resume_settled {n q : PyStr} {c : Conv D A} {data : D} {r : PyRes A} (h : c.Settled r) :
    resumeEntry env n q c data = (data, .finished q (r >>= fun a => env.appGet a n)) ∨
    ∃ k, resumeEntry env n q c data = (data, .running q k) ∧ k.Settled r := by
  unfold resumeEntry
  rcases Conv.settled_segment h data with h | ⟨k, h, hk⟩
  · rw [h]
    cases r <;> exact .inl rfl
  · rw [h]
    exact .inr ⟨k, rfl, hk⟩

theorem readsInv_step (hr : env.toApp.ReadsFirst) (ho : env.Overwrites) {d : D} {p n : PyStr} {data data' : D}
    {tasks : List (EntryTask A D)} {i : Nat} {t t' : EntryTask A D} (h : ReadsInv env d p n data tasks) (ht : tasks[i]? = some t)
    (hst : entryStep env p n data t = some (data', t')) : ReadsInv env d p n data' (tasks.set i t') := by
  obtain ⟨hd, hts⟩ := h
  have hmem : ∀ x ∈ tasks.set i t', x ∈ tasks ∨ x = t' := fun x hx => List.mem_or_eq_of_mem_set hx
  have main : (data' = d ∨ ∃ q, data' = (env.ediSet d p q).1) ∧ TaskReads env d p n t' := by
    rcases hts t (List.mem_of_getElem? ht) with ⟨q, rfl⟩ | ⟨q, c, rfl, h1, h2⟩ | ⟨q, rfl⟩
    · simp only [entryStep] at hst
      rw [set_of_data ho hd q] at hst
      rcases hset : env.ediSet d p q with ⟨d1, r⟩
      rw [hset] at hst
      cases r with
      | error e =>
        simp only [Option.some.injEq, Prod.mk.injEq] at hst
        obtain ⟨rfl, rfl⟩ := hst
        refine ⟨.inr ⟨q, by rw [hset]⟩, .inr (.inr ⟨q, ?_⟩)⟩
        unfold TransformEnv.valueFor
        rw [hset]; rfl
      | ok u =>
        simp only [Option.some.injEq] at hst
        have hval : env.valueFor d p n q = (env.toApp.alone d1 >>= fun a => env.appGet a n) := by
          unfold TransformEnv.valueFor
          rw [hset]; rfl
        have hd1 : d1 = (env.ediSet d p q).1 := by rw [hset]
        unfold resumeEntry at hst
        rcases hr d1 with h | ⟨k, h, hk⟩
        · rw [h] at hst
          have : (data', t') = (d1, EntryTask.finished q (env.valueFor d p n q)) := by
            rw [hval, ← hst]
            cases env.toApp.alone d1 <;> rfl
          cases this
          exact ⟨.inr ⟨q, hd1⟩, .inr (.inr ⟨q, rfl⟩)⟩
        · rw [h] at hst
          cases hst
          exact ⟨.inr ⟨q, hd1⟩, .inr (.inl ⟨q, k, rfl, by rw [hset], by rw [hset]; exact hk⟩)⟩
    · simp only [entryStep, Option.some.injEq] at hst
      have hval : env.valueFor d p n q = (env.toApp.alone (env.ediSet d p q).1 >>= fun a => env.appGet a n) := by
        unfold TransformEnv.valueFor
        rw [h1]; rfl
      rcases resume_settled (env := env) (n := n) (q := q) (data := data) h2 with h | ⟨k, h, hk⟩
      · rw [h] at hst
        cases hst
        exact ⟨hd, .inr (.inr ⟨q, by rw [hval]⟩)⟩
      · rw [h] at hst
        cases hst
        exact ⟨hd, .inr (.inl ⟨q, k, rfl, h1, hk⟩)⟩
    · cases hst
  refine ⟨main.1, fun x hx => ?_⟩
  rcases hmem x hx with hx | rfl
  · exact hts x hx
  · exact main.2

theorem readsInv_init (d : D) (p n : PyStr) : ReadsInv env d p n d (pool.map fun e => .pending e.qualifier) := by
  refine ⟨.inl rfl, fun t ht => ?_⟩
  obtain ⟨e, _, rfl⟩ := List.mem_map.1 ht
  exact .inl ⟨_, rfl⟩

/-! ## from the tasks to the dictionary -/

theorem find_maps {p n : PyStr} (h : (env.mapping.find? fun x => decide (some x.1 = discriminator)) = some (p, n)) :
    env.Maps discriminator p n := by
  have h1 := List.mem_of_find?_eq_some h
  have h2 := List.find?_some h
  simp only [decide_eq_true_eq] at h2
  exact ⟨h2.symm, h1⟩

theorem find_unmapped : (env.mapping.find? fun x => decide (some x.1 = discriminator)) = none ↔
    ∀ p ∈ env.mapping, discriminator ≠ some p.1 := by
  rw [List.find?_eq_none]
  simp only [decide_eq_true_eq]
  exact forall₂_congr fun _ _ => ⟨fun h h' => h h'.symm, fun h h' => h h'.symm⟩

theorem maps_find (hm : env.IsMapping) {p n : PyStr} (h : env.Maps discriminator p n) :
    (env.mapping.find? fun x => decide (some x.1 = discriminator)) = some (p, n) := by
  obtain ⟨rfl, h⟩ := h
  unfold TransformEnv.IsMapping at hm
  generalize env.mapping = m at h hm ⊢
  induction m with
  | nil => cases h
  | cons x l ih =>
    rw [List.find?_cons]
    rw [List.map_cons, List.nodup_cons] at hm
    rcases List.mem_cons.1 h with rfl | h
    · simp
    · have hne : x.1 ≠ p := fun he => hm.1 (he ▸ List.mem_map.2 ⟨_, h, rfl⟩)
      simp only [Option.some.injEq, hne, decide_false]
      simpa only [Option.some.injEq] using ih h hm.2

/-- the tasks have all returned: the pairs they have returned -/
theorem results_eq {tasks : List (EntryTask A D)} (hall : ∀ t ∈ tasks, t.result?.isSome = true) :
    (tasks.filterMap EntryTask.result?).map Prod.fst = tasks.map EntryTask.qualifier := by
  induction tasks with
  | nil => rfl
  | cons t ts ih =>
    have ht := hall t (by simp)
    cases hr : t.result? with
    | none => rw [hr] at ht; cases ht
    | some x =>
      rw [List.filterMap_cons_some hr, List.map_cons, List.map_cons, ih (fun t ht => hall t (by simp [ht]))]
      congr 1
      cases t with
      | finished q r =>
        cases r with
        | ok v => cases hr; rfl
        | error e => cases hr
      | pending => cases hr
      | running => cases hr

theorem mem_results {tasks : List (EntryTask A D)} {k : PyStr} {v : Option PyStr} :
    (k, v) ∈ tasks.filterMap EntryTask.result? ↔ .finished k (.ok v) ∈ tasks := by
  rw [List.mem_filterMap]
  constructor
  · rintro ⟨t, ht, hr⟩
    cases t with
    | finished q r =>
      cases r with
      | ok v => cases hr; exact ht
      | error e => cases hr
    | pending => cases hr
    | running => cases hr
  · exact fun h => ⟨_, h, rfl⟩

/-- a dictionary after `update` with consistent pairs -/
theorem mem_dictUpdate_consistent {cur ps : List (PyStr × Option PyStr)} (hn : (cur.map Prod.fst).Nodup)
    (hc : ∀ k v v', (k, v) ∈ ps → (k, v') ∈ ps → v = v') (k : PyStr) (v : Option PyStr) :
    (k, v) ∈ dictUpdate cur ps ↔ (k, v) ∈ ps ∨ (k ∉ ps.map Prod.fst ∧ (k, v) ∈ cur) := by
  induction ps generalizing cur with
  | nil => simp [dictUpdate]
  | cons x ps ih =>
    obtain ⟨k0, v0⟩ := x
    show (k, v) ∈ dictUpdate (dictSet k0 v0 cur) ps ↔ _
    rw [ih (nodup_dictSet hn) (fun k v v' h h' => hc k v v' (by simp [h]) (by simp [h'])), mem_dictSet hn]
    constructor
    · rintro (h | ⟨h1, (⟨rfl, rfl⟩ | ⟨h2, h3⟩)⟩)
      · exact .inl (by simp [h])
      · exact .inl (by simp)
      · exact .inr ⟨by simp [h1, h2], h3⟩
    · rintro (h | ⟨h1, h2⟩)
      · rcases List.mem_cons.1 h with h | h
        · cases h
          by_cases hk : k ∈ ps.map Prod.fst
          · left
            obtain ⟨y, hy, hyk⟩ := List.mem_map.1 hk
            obtain ⟨k', v'⟩ := y
            simp only at hyk
            subst hyk
            rw [hc k' v v' (by simp) (by simp [hy])]
            exact hy
          · exact .inr ⟨hk, .inl ⟨rfl, rfl⟩⟩
        · exact .inl h
      · simp only [List.map_cons, List.mem_cons, not_or] at h1
        exact .inr ⟨h1.2, .inr ⟨h1.1, h2⟩⟩

theorem nodup_startDict (v' v : Option PyStr) : ((startDict v' v).map Prod.fst).Nodup := by
  unfold startDict
  split <;> simp

theorem mem_startDict {v' v w : Option PyStr} {k : PyStr} : (k, w) ∈ startDict v' v ↔ v' = some k ∧ w = v := by
  unfold startDict
  cases v' with
  | none => simp
  | some x => simp [eq_comm]

/-! ## a single task -/

/-- the joint invariant for pools with at most one entry -/
def SingleInv (env : TransformEnv A D) (d : D) (p n : PyStr) (data : D) (tasks : List (EntryTask A D)) : Prop :=
  tasks = [] ∨ (∃ q, tasks = [.pending q] ∧ data = d) ∨
  (∃ q c, tasks = [.running q c] ∧ (env.ediSet d p q).2 = .ok () ∧ c.alone data = env.toApp.alone (env.ediSet d p q).1) ∨
  ∃ q, tasks = [.finished q (env.valueFor d p n q)]

theorem resumeEntry_alone (n q : PyStr) (c : Conv D A) (data : D) :
    (∃ k, (resumeEntry env n q c data).2 = .running q k ∧ k.alone (resumeEntry env n q c data).1 = c.alone data) ∨
    (resumeEntry env n q c data).2 = .finished q (c.alone data >>= fun a => env.appGet a n) := by
  rw [Conv.segment_alone c data]
  unfold resumeEntry
  rcases c.segment data with ⟨d1, r | k⟩
  · cases r <;> exact .inr rfl
  · exact .inl ⟨k, rfl, rfl⟩

theorem singleInv_step {d : D} {p n : PyStr} {data data' : D}
    {tasks : List (EntryTask A D)} {i : Nat} {t t' : EntryTask A D} (h : SingleInv env d p n data tasks) (ht : tasks[i]? = some t)
    (hst : entryStep env p n data t = some (data', t')) : SingleInv env d p n data' (tasks.set i t') := by
  have h0 : ∀ x : EntryTask A D, tasks = [x] → i = 0 ∧ t = x := by
    rintro x rfl
    cases i with
    | zero => simp at ht; exact ⟨rfl, ht.symm⟩
    | succ i => simp at ht
  rcases h with rfl | ⟨q, h, rfl⟩ | ⟨q, c, h, h1, h2⟩ | ⟨q, h⟩
  · simp at ht
  · obtain ⟨rfl, rfl⟩ := h0 _ h
    subst h
    simp only [entryStep] at hst
    rcases hset : env.ediSet data p q with ⟨d1, r⟩
    rw [hset] at hst
    cases r with
    | error e =>
      simp only [Option.some.injEq, Prod.mk.injEq] at hst
      obtain ⟨rfl, rfl⟩ := hst
      refine .inr (.inr (.inr ⟨q, ?_⟩))
      unfold TransformEnv.valueFor
      rw [hset]; rfl
    | ok u =>
      simp only [Option.some.injEq] at hst
      rcases resumeEntry_alone (env := env) n q env.toApp d1 with ⟨k, hk, hk'⟩ | hk
      · rw [hst] at hk hk'
        simp only at hk hk'
        subst hk
        exact .inr (.inr (.inl ⟨q, k, rfl, by rw [hset], by rw [hset, hk']⟩))
      · rw [hst] at hk
        simp only at hk
        subst hk
        refine .inr (.inr (.inr ⟨q, ?_⟩))
        unfold TransformEnv.valueFor
        rw [hset]; rfl
  · obtain ⟨rfl, rfl⟩ := h0 _ h
    subst h
    simp only [entryStep, Option.some.injEq] at hst
    rcases resumeEntry_alone (env := env) n q c data with ⟨k, hk, hk'⟩ | hk
    · rw [hst] at hk hk'
      simp only at hk hk'
      subst hk
      exact .inr (.inr (.inl ⟨q, k, rfl, h1, by rw [hk', h2]⟩))
    · rw [hst] at hk
      simp only at hk
      subst hk
      refine .inr (.inr (.inr ⟨q, ?_⟩))
      unfold TransformEnv.valueFor
      rw [h1, h2]; rfl
  · obtain ⟨rfl, rfl⟩ := h0 _ h
    cases hst

theorem singleInv_init (h : pool.length ≤ 1) (d : D) (p n : PyStr) :
    SingleInv env d p n d (pool.map fun e => .pending e.qualifier) := by
  match pool, h with
  | [], _ => exact .inl rfl
  | [e], _ => exact .inr (.inl ⟨e.qualifier, rfl, rfl⟩)

/-! ## the result -/

/-- if the tasks have read what they should, the result is the replacement or the failure of one of the entries -/
theorem result_of_reads {J : D → PyStr → PyStr → D → List (EntryTask A D) → Prop}
    (hJ : ∀ d p n data tasks, J d p n data tasks → ∀ q r, EntryTask.finished q r ∈ tasks → r = env.valueFor d p n q)
    {r : PyRes (List (PyStr × Option PyStr))} (h : GenInv env app discriminator pool J (.finished r)) :
    (∃ e, r = .error e ∧ env.Fails app discriminator pool e) ∨
    ∃ d p n v v' dict, r = .ok dict ∧ (env.toEdi app).alone () = .ok d ∧ env.Maps discriminator p n ∧
      (env.mapping.find? fun x => decide (some x.1 = discriminator)) = some (p, n) ∧
      env.appGet app n = .ok v ∧ env.ediGet d p = .ok v' ∧
      (∀ q ∈ qualifiersOf pool, ∃ w, env.valueFor d p n q = .ok w) ∧ DictIs dict (env.Replacement app pool d p n) ∧
      ∃ tasks : List (EntryTask A D), tasks.map EntryTask.qualifier = qualifiersOf pool ∧
        tasks = (qualifiersOf pool).map (fun q => .finished q (env.valueFor d p n q)) ∧
        dict = dictUpdate (startDict v' v) (tasks.filterMap EntryTask.result?) := by
  rcases h with ⟨e, rfl, he⟩ | ⟨p, n, cur, data, tasks, d, v, v', hg, ⟨e, rfl, t, ht, hte⟩ | ⟨rfl, hall⟩⟩
  · refine .inl ⟨e, rfl, ?_⟩
    cases he with
    | toEdi h => exact .toEdi h
    | unmapped h1 h2 => exact .unmapped h1 (find_unmapped.1 h2)
    | appGet h1 h2 h3 => exact .appGet h1 (find_maps h2) h3
    | ediGet h1 h2 h3 h4 => exact .ediGet h1 (find_maps h2) h3 h4
  · refine .inl ⟨e, rfl, ?_⟩
    cases t with
    | finished q r =>
      cases r with
      | ok => cases hte
      | error e' =>
        cases hte
        have hq : q ∈ qualifiersOf pool := by
          rw [← hg.quals]
          exact List.mem_map.2 ⟨_, ht, rfl⟩
        exact .entry hg.toEdi (find_maps hg.find) hg.appGet hg.ediGet hq (hJ _ _ _ _ _ hg.inv _ _ ht).symm
    | pending => cases hte
    | running => cases hte
  · right
    have hfin : ∀ t ∈ tasks, ∃ w, t = .finished t.qualifier (.ok w) ∧ env.valueFor d p n t.qualifier = .ok w := by
      intro t ht
      have := hall t ht
      cases t with
      | pending => cases this
      | running => cases this
      | finished q r =>
        cases r with
        | error => cases this
        | ok w => exact ⟨w, rfl, (hJ _ _ _ _ _ hg.inv _ _ ht).symm⟩
    have hcons : ∀ k w w', (k, w) ∈ tasks.filterMap EntryTask.result? → (k, w') ∈ tasks.filterMap EntryTask.result? → w = w' := by
      intro k w w' h h'
      have h1 := hJ _ _ _ _ _ hg.inv _ _ (mem_results.1 h)
      have h2 := hJ _ _ _ _ _ hg.inv _ _ (mem_results.1 h')
      rw [← h1] at h2
      cases h2; rfl
    have hkeys : (tasks.filterMap EntryTask.result?).map Prod.fst = qualifiersOf pool := by rw [results_eq hall, hg.quals]
    refine ⟨d, p, n, v, v', _, rfl, hg.toEdi, find_maps hg.find, hg.find, hg.appGet, hg.ediGet, ?_, ⟨?_, ?_⟩, tasks, hg.quals, ?_, ?_⟩
    · intro q hq
      rw [← hg.quals, List.mem_map] at hq
      obtain ⟨t, ht, rfl⟩ := hq
      obtain ⟨w, _, h⟩ := hfin t ht
      exact ⟨w, h⟩
    · rw [hg.cur_eq]
      exact nodup_dictUpdate (nodup_startDict _ _)
    · intro k w
      rw [hg.cur_eq, mem_dictUpdate_consistent (nodup_startDict _ _) hcons, hkeys, mem_startDict]
      unfold TransformEnv.Replacement
      have e1 : (k, w) ∈ tasks.filterMap EntryTask.result? ↔ k ∈ qualifiersOf pool ∧ env.valueFor d p n k = .ok w := by
        rw [mem_results]
        constructor
        · intro h
          refine ⟨?_, (hJ _ _ _ _ _ hg.inv _ _ h).symm⟩
          rw [← hg.quals]
          exact List.mem_map.2 ⟨_, h, rfl⟩
        · rintro ⟨h1, h2⟩
          rw [← hg.quals, List.mem_map] at h1
          obtain ⟨t, ht, rfl⟩ := h1
          obtain ⟨w', h3, h4⟩ := hfin t ht
          rw [h4] at h2
          cases h2
          rw [← h3]; exact ht
      rw [e1, hg.ediGet, hg.appGet]
      simp only [Except.ok.injEq]
      tauto
    · rw [← hg.quals, List.map_map]
      symm
      conv_rhs => rw [← List.map_id tasks]
      apply List.map_congr_left
      intro t ht
      obtain ⟨w, h1, h2⟩ := hfin t ht
      simp only [Function.comp, id]
      rw [h2, ← h1]
    · rw [hg.cur_eq]

theorem fails_not_ok (hm : env.IsMapping) {d : D} {p n : PyStr} {v v' : Option PyStr} (h1 : (env.toEdi app).alone () = .ok d)
    (h2 : (env.mapping.find? fun x => decide (some x.1 = discriminator)) = some (p, n)) (h3 : env.appGet app n = .ok v)
    (h4 : env.ediGet d p = .ok v') (h5 : ∀ q ∈ qualifiersOf pool, ∃ w, env.valueFor d p n q = .ok w) (e : Exc) :
    ¬ env.Fails app discriminator pool e := by
  intro h
  have huniq : ∀ {p' n'}, env.Maps discriminator p' n' → p' = p ∧ n' = n := by
    intro p' n' hmap
    have := maps_find hm hmap
    rw [h2] at this
    cases this; exact ⟨rfl, rfl⟩
  cases h with
  | toEdi g1 => rw [h1] at g1; cases g1
  | unmapped g1 g2 => rw [find_unmapped.2 g2] at h2; cases h2
  | appGet g1 g2 g3 => obtain ⟨rfl, rfl⟩ := huniq g2; rw [h3] at g3; cases g3
  | ediGet g1 g2 g3 g4 =>
    obtain ⟨rfl, rfl⟩ := huniq g2
    rw [h1] at g1; cases g1
    rw [h4] at g4; cases g4
  | entry g1 g2 g3 g4 g5 g6 =>
    obtain ⟨rfl, rfl⟩ := huniq g2
    rw [h1] at g1; cases g1
    obtain ⟨w, hw⟩ := h5 _ g5
    rw [hw] at g6; cases g6

/-! ## termination -/

/-- a coroutine cannot be suspended for ever -/
theorem Conv.acc (c : Conv D R) : Acc (fun c' c : Conv D R => ∃ d, (c.segment d).2 = .inr c') c := by
  induction c with
  | ret r => exact ⟨_, fun y ⟨d, hd⟩ => by cases hd⟩
  | op f k ih => exact ⟨_, fun y ⟨d, hd⟩ => (ih d).inv ⟨f d, hd⟩⟩
  | suspend k ih => exact ⟨_, fun y ⟨d, hd⟩ => by cases hd; exact ih⟩

/-- a step of a task -/
def TaskLt (env : TransformEnv A D) (p n : PyStr) (t' t : EntryTask A D) : Prop :=
  ∃ data data', entryStep env p n data t = some (data', t')

theorem acc_running (p n q : PyStr) (c : Conv D A) : Acc (TaskLt env p n) (.running q c) := by
  induction Conv.acc c with
  | intro c _ ih =>
    refine ⟨_, fun t ⟨data, data', h⟩ => ?_⟩
    simp only [entryStep, Option.some.injEq] at h
    unfold resumeEntry at h
    rcases hs : c.segment data with ⟨d1, r | k⟩
    · rw [hs] at h
      cases r with
      | error e => cases h; exact ⟨_, fun t ⟨_, _, h⟩ => by cases h⟩
      | ok a => cases h; exact ⟨_, fun t ⟨_, _, h⟩ => by cases h⟩
    · rw [hs] at h
      cases h
      exact ih k ⟨data, by rw [hs]⟩

theorem acc_task (p n : PyStr) (t : EntryTask A D) : Acc (TaskLt env p n) t := by
  have hf : ∀ q r, Acc (TaskLt env p n) (.finished q r : EntryTask A D) := fun q r => ⟨_, fun t ⟨_, _, h⟩ => by cases h⟩
  cases t with
  | finished q r => exact hf q r
  | running q c => exact acc_running p n q c
  | pending q =>
    refine ⟨_, fun t ⟨data, data', h⟩ => ?_⟩
    have hq := entryStep_qualifier h
    cases t with
    | finished q r => exact hf q r
    | running q c => exact acc_running p n q c
    | pending q' =>
      exfalso
      simp only [entryStep] at h
      split at h
      · cases h
      · unfold resumeEntry at h
        split at h <;> cases h

/-- one element of a list is made smaller -/
def ListLt {α : Type} (r : α → α → Prop) (l' l : List α) : Prop := ∃ (i : Nat) (x y : α), l[i]? = some x ∧ r y x ∧ l' = l.set i y

theorem acc_list {α : Type} {r : α → α → Prop} (h : ∀ x, Acc r x) (l : List α) : Acc (ListLt r) l := by
  induction l with
  | nil => exact ⟨_, fun l' ⟨i, x, y, hx, _⟩ => by simp at hx⟩
  | cons a l ih =>
    have key : ∀ a, Acc r a → ∀ l, Acc (ListLt r) l → Acc (ListLt r) (a :: l) := by
      intro a ha
      induction ha with
      | intro a _ iha =>
        intro l hl
        induction hl with
        | intro l hl' ihl =>
          refine ⟨_, fun l' ⟨i, x, y, hx, hr, he⟩ => ?_⟩
          cases i with
          | zero =>
            simp only [List.getElem?_cons_zero, Option.some.injEq] at hx
            subst hx
            rw [he]
            exact iha y hr l ⟨_, hl'⟩
          | succ i =>
            simp only [List.getElem?_cons_succ] at hx
            rw [he]
            exact ihl _ ⟨i, x, y, hx, hr, rfl⟩
    exact key a (h a) l ih

/-- a step of `generate_value_pool_replacement` -/
def GenLt (env : TransformEnv A D) (app : A) (discriminator : Option PyStr) (pool : List ValuePoolEntry) (s' s : GenState A D) : Prop :=
  ∃ c, genStep env app discriminator pool c s = some s'

theorem acc_finished (r : PyRes (List (PyStr × Option PyStr))) : Acc (GenLt env app discriminator pool) (.finished r) :=
  ⟨_, fun s ⟨c, h⟩ => by cases c <;> cases h⟩

theorem acc_gathering (p n : PyStr) (cur : List (PyStr × Option PyStr)) (data : D) (tasks : List (EntryTask A D)) (err : Option Exc) :
    Acc (GenLt env app discriminator pool) (.gathering p n cur data tasks err) := by
  induction acc_list (acc_task (env := env) p n) tasks generalizing data err with
  | intro tasks _ ih =>
    refine ⟨_, fun s ⟨c, h⟩ => ?_⟩
    cases c with
    | self =>
      simp only [genStep] at h
      cases err with
      | some e => cases h; exact acc_finished _
      | none =>
        simp only at h
        split at h
        · cases h; exact acc_finished _
        · cases h
    | entry i =>
      simp only [genStep] at h
      cases ht : tasks[i]? with
      | none => rw [ht] at h; cases h
      | some t =>
        rw [ht] at h
        simp only at h
        cases hst : entryStep env p n data t with
        | none => rw [hst] at h; cases h
        | some r =>
          obtain ⟨data', t'⟩ := r
          rw [hst] at h
          cases h
          exact ih _ ⟨i, t, t', ht, ⟨_, _, hst⟩, rfl⟩ _ _

theorem acc_begin (d : D) : Acc (GenLt env app discriminator pool) (beginGather env app discriminator pool d) := by
  unfold beginGather
  split
  · exact acc_finished _
  · split
    · exact acc_finished _
    · split
      · exact acc_finished _
      · exact acc_gathering _ _ _ _ _ _
      · exact acc_gathering _ _ _ _ _ _

theorem acc_gen (s : GenState A D) : Acc (GenLt env app discriminator pool) s := by
  cases s with
  | finished r => exact acc_finished r
  | gathering => exact acc_gathering _ _ _ _ _ _
  | converting c =>
    induction Conv.acc c with
    | intro c _ ih =>
      refine ⟨_, fun s ⟨ch, h⟩ => ?_⟩
      cases ch with
      | entry => cases h
      | self =>
        simp only [genStep] at h
        rcases hs : c.segment () with ⟨u, r | k⟩
        · rw [hs] at h
          cases r with
          | error e => cases h; exact acc_finished _
          | ok d => cases h; exact acc_begin d
        · rw [hs] at h
          cases h
          exact ih k ⟨(), by rw [hs]⟩

theorem no_infinite {α : Type} {r : α → α → Prop} {x : α} (h : Acc r x) : ¬ ∃ f : Nat → α, f 0 = x ∧ ∀ i, r (f (i + 1)) (f i) := by
  induction h with
  | intro x _ ih =>
    rintro ⟨f, rfl, hf⟩
    exact ih (f 1) (hf 0) ⟨fun i => f (i + 1), rfl, fun i => hf (i + 1)⟩

/-- as long as it is not finished, something can go on -/
theorem gen_progress {J : D → PyStr → PyStr → D → List (EntryTask A D) → Prop} {s : GenState A D}
    (hs : GenInv env app discriminator pool J s) (hf : ∀ r, s ≠ .finished r) :
    ∃ c s', genStep env app discriminator pool c s = some s' := by
  cases s with
  | finished r => exact absurd rfl (hf r)
  | converting co =>
    refine ⟨.self, ?_⟩
    simp only [genStep]
    split <;> exact ⟨_, rfl⟩
  | gathering p n cur data tasks err =>
    obtain ⟨d, v, v', hg, he1, he2⟩ := hs
    cases err with
    | some e => exact ⟨.self, _, rfl⟩
    | none =>
      by_cases hall : tasks.all fun t => t.result?.isSome
      · exact ⟨.self, .finished (.ok (dictUpdate cur (tasks.filterMap EntryTask.result?))), by simp only [genStep, hall, if_true]⟩
      · rw [List.all_eq_true] at hall
        simp only [not_forall] at hall
        obtain ⟨t, ht, hr⟩ := hall
        obtain ⟨i, hi⟩ := List.getElem?_of_mem ht
        have hstep : ∃ x, entryStep env p n data t = some x := by
          cases t with
          | pending q =>
            simp only [entryStep]
            split <;> exact ⟨_, rfl⟩
          | running q c => exact ⟨_, rfl⟩
          | finished q r =>
            exfalso
            cases r with
            | ok v => exact hr rfl
            | error e => have := he1 rfl _ ht; cases this
        obtain ⟨⟨data', t'⟩, hx⟩ := hstep
        refine ⟨.entry i, .gathering p n cur data' (tasks.set i t') (none.or t'.error?), ?_⟩
        simp only [genStep, hi, hx]

end

end Verif
