import Verif.Proofs.Transformation
import Verif.Proofs.Meta
import Verif.Props.Components
import Verif.Props.Transformation
/-!
# Invariants of `transform_all_value_pools`
-/

namespace Verif

section
variable {A D : Type} {env : TransformEnv A D} {app : A}

theorem isTransformed_iff (de : DataElement) : poolIsTransformed de.discriminator = true ↔ IsTransformed de := by
  unfold poolIsTransformed IsTransformed
  cases de.discriminator with
  | none => simp
  | some d =>
    simp only [Bool.and_eq_true, Bool.not_eq_true', ← Bool.not_eq_true, contains_iff, List.isPrefixOf_iff_prefix, Option.some.injEq]
    constructor
    · rintro ⟨⟨h1, h2⟩, h3⟩
      cases d with
      | nil => simp at h1
      | cons c d =>
        obtain ⟨rfl, _⟩ := List.cons_prefix_cons.1 h1
        exact ⟨d, rfl, h2, h3⟩
    · rintro ⟨rest, rfl, h2, h3⟩
      exact ⟨⟨List.cons_prefix_cons.2 ⟨rfl, List.nil_prefix⟩, h2⟩, h3⟩

theorem genRun_snoc {disc : Option PyStr} {pool : List ValuePoolEntry} {cs : List Choice} {c : Choice} {s s1 s2 : GenState A D}
    (h : genRun env app disc pool cs s = some s1) (h' : genStep env app disc pool c s1 = some s2) :
    genRun env app disc pool (cs ++ [c]) s = some s2 := by
  induction cs generalizing s with
  | nil => cases h; simp [genRun, h']
  | cons c0 cs ih =>
    simp only [genRun, List.cons_append] at h ⊢
    cases hs : genStep env app disc pool c0 s with
    | none => rw [hs] at h; cases h
    | some s3 => rw [hs] at h; exact ih h

/-- a task and the value pool it is about -/
def PoolTaskOk (env : TransformEnv A D) (app : A) (de : DataElement) : PoolTask A D → Prop
  | .skipped de' => de' = de ∧ ¬ IsTransformed de
  | .running de' g => de' = de ∧ IsTransformed de ∧ (∀ r, g ≠ .finished r) ∧
      ∃ cs, genRun env app de.discriminator de.poolEntries cs (genInit env app) = some g
  | .done de' r => IsTransformed de ∧ ∃ rg, env.EndsWith app de.discriminator de.poolEntries rg ∧
      ((∃ e, rg = .error e ∧ de' = de ∧ r = .error e) ∨
        ∃ dict, rg = .ok dict ∧ (de', r) = de.replaceValuePool (fun q => dictGet q dict) none)

/-- the invariant of `transform_all_value_pools` -/
structure TopInv (env : TransformEnv A D) (app : A) (pools : List DataElement) (s : TopState A D) : Prop where
  tasks : List.Forall₂ (PoolTaskOk env app) pools s.tasks
  none : s.err = none → ∀ t ∈ s.tasks, t.error? = none
  some : ∀ e, s.err = some e → ∃ t ∈ s.tasks, t.error? = some e

theorem topInv_init (ahb : DeepAhb) : TopInv env app ahb.getAllValuePools (topInit env app ahb) := by
  refine ⟨?_, ?_, fun e h => by cases h⟩
  · simp only [topInit, List.forall₂_map_right_iff]
    apply List.forall₂_same.2
    intro de _
    split
    · rename_i h
      exact ⟨rfl, (isTransformed_iff de).1 h, fun r h => (by cases h), [], rfl⟩
    · rename_i h
      exact ⟨rfl, fun h' => h ((isTransformed_iff de).2 h')⟩
  · intro _ t ht
    simp only [topInit, List.mem_map] at ht
    obtain ⟨de, _, rfl⟩ := ht
    split <;> rfl

theorem forall₂_set {α β : Type} {R : α → β → Prop} {l : List α} {m : List β} (h : List.Forall₂ R l m) {i : Nat} {y : β}
    (hy : ∀ x, l[i]? = some x → R x y) : List.Forall₂ R l (m.set i y) := by
  induction h generalizing i with
  | nil => simp
  | cons hab _ ih =>
    cases i with
    | zero => exact .cons (hy _ rfl) ‹_›
    | succ i => exact .cons hab (ih fun x hx => hy x (by simpa using hx))

theorem forall₂_get {α β : Type} {R : α → β → Prop} {l : List α} {m : List β} (h : List.Forall₂ R l m) {i : Nat} {x : α} {y : β}
    (hx : l[i]? = some x) (hy : m[i]? = some y) : R x y := by
  induction h generalizing i with
  | nil => simp at hx
  | cons hab _ ih =>
    cases i with
    | zero => simp only [List.getElem?_cons_zero, Option.some.injEq] at hx hy; subst hx; subst hy; exact hab
    | succ i => exact ih (by simpa using hx) (by simpa using hy)

theorem topInv_step {pools : List DataElement} {s s' : TopState A D} {c : Nat × Choice} (hs : TopInv env app pools s)
    (h : topStep env app c s = some s') : TopInv env app pools s' := by
  unfold topStep at h
  split at h
  · rename_i de g ht
    cases hg : genStep env app de.discriminator de.poolEntries c.2 g with
    | none => rw [hg] at h; cases h
    | some g' =>
      rw [hg] at h
      simp only [Option.some.injEq] at h
      subst h
      have hlt := (List.getElem?_eq_some_iff.1 ht).1
      refine ⟨?_, ?_, ?_⟩
      · apply forall₂_set hs.tasks
        intro x hx
        obtain ⟨rfl, h1, h2, cs, h3⟩ := forall₂_get hs.tasks hx ht
        have hrun := genRun_snoc h3 hg
        cases g' with
        | converting => exact ⟨rfl, h1, fun r h => (by cases h), _, hrun⟩
        | gathering => exact ⟨rfl, h1, fun r h => (by cases h), _, hrun⟩
        | finished r =>
          cases r with
          | error e => exact ⟨h1, _, ⟨_, hrun⟩, .inl ⟨e, rfl, rfl, rfl⟩⟩
          | ok dict => exact ⟨h1, _, ⟨_, hrun⟩, .inr ⟨dict, rfl, rfl⟩⟩
      · intro h0 t ht'
        simp only [Option.or_eq_none_iff] at h0
        rcases List.mem_or_eq_of_mem_set ht' with h' | rfl
        · exact hs.none h0.1 t h'
        · exact h0.2
      · intro e h0
        simp only at h0
        cases he : s.err with
        | none =>
          rw [he, Option.none_or] at h0
          exact ⟨_, List.mem_set hlt _, h0⟩
        | some e' =>
          rw [he, Option.some_or] at h0
          obtain ⟨x, hx, hxe⟩ := hs.some e (by rw [he, h0])
          refine ⟨x, ?_, hxe⟩
          obtain ⟨j, hj⟩ := List.getElem?_of_mem hx
          apply List.mem_of_getElem? (i := j)
          rw [List.getElem?_set_ne, hj]
          rintro rfl
          rw [ht] at hj
          cases hj
          cases hxe
  · cases h

theorem topInv_run {ahb : DeepAhb} {cs : List (Nat × Choice)} {s : TopState A D}
    (h : topRun env app cs (topInit env app ahb) = some s) : TopInv env app ahb.getAllValuePools s := by
  have key : ∀ (cs : List (Nat × Choice)) (s0 : TopState A D), TopInv env app ahb.getAllValuePools s0 →
      topRun env app cs s0 = some s → TopInv env app ahb.getAllValuePools s := by
    intro cs
    induction cs with
    | nil => intro s0 hs h; cases h; exact hs
    | cons c cs ih =>
      intro s0 hs h
      simp only [topRun] at h
      cases hst : topStep env app c s0 with
      | none => rw [hst] at h; cases h
      | some s1 => rw [hst] at h; exact ih s1 (topInv_step hs hst) h
  exact key cs _ (topInv_init ahb) h

theorem mem_of_dictGet {k : PyStr} {v : Option PyStr} {d : List (PyStr × Option PyStr)} (h : dictGet k d = some v) : (k, v) ∈ d := by
  induction d with
  | nil => cases h
  | cons x d ih =>
    simp only [dictGet] at h
    split at h
    · rename_i he
      cases h
      rw [← he]; simp
    · exact List.mem_cons_of_mem _ (ih h)

theorem ok_of_not_fails {disc : Option PyStr} {pool : List ValuePoolEntry} (hf : ∀ e, ¬ env.Fails app disc pool e) {d : D} {p n : PyStr}
    (h1 : (env.toEdi app).alone () = .ok d) (h2 : env.Maps disc p n) : ∀ q ∈ qualifiersOf pool, ∃ w, env.valueFor d p n q = .ok w := by
  intro q hq
  cases ha : env.appGet app n with
  | error e => exact absurd (.appGet h1 h2 ha) (hf e)
  | ok v =>
    cases he : env.ediGet d p with
    | error e => exact absurd (.ediGet h1 h2 ha he) (hf e)
    | ok v' =>
      cases hv : env.valueFor d p n q with
      | error e => exact absurd (.entry h1 h2 ha he hq hv) (hf e)
      | ok w => exact ⟨w, rfl⟩

/-- replacing with the described dictionary -/
theorem replace_described (hm : env.IsMapping) {de : DataElement} (hpool : de.isValuePool = true) {d : D} {p n : PyStr} {dict : List (PyStr × Option PyStr)}
    (hf : ∀ e, ¬ env.Fails app de.discriminator de.poolEntries e)
    (h1 : (env.toEdi app).alone () = .ok d) (h2 : env.Maps de.discriminator p n)
    (h3 : DictIs dict (env.Replacement app de.poolEntries d p n))
    {de' : DataElement} {r : PyRes Unit}
    (h : (de', r) = de.replaceValuePool (fun q => dictGet q dict) none) :
    (r = .ok () ∧ env.PoolReplaced app de de' ∧ ∀ e, ¬ env.PoolFails app de e) ∨
    ∃ e, r = .error e ∧ env.PoolFails app de e := by
  obtain ⟨pool, hk⟩ : ∃ pool, de.kind = .valuePool pool := by
    cases hk : de.kind with
    | valuePool pool => exact ⟨pool, rfl⟩
    | freeText e => simp [DataElement.isValuePool, hk] at hpool
  have hv := ok_of_not_fails hf h1 h2
  have hent : de.poolEntries = pool := by unfold DataElement.poolEntries; rw [hk]
  have hget : ∀ q ∈ qualifiersOf pool, ∃ w, env.valueFor d p n q = .ok w ∧ dictGet q dict = some w := by
    intro q hq
    obtain ⟨w, hw⟩ := hv q (by rw [hent]; exact hq)
    exact ⟨w, hw, (dictGet_eq_some h3.1).2 ((h3.2 q w).2 (.inl ⟨by rw [hent]; exact hq, hw⟩))⟩
  have hmem : ∀ e ∈ pool, e.qualifier ∈ qualifiersOf pool := fun e he => List.mem_map.2 ⟨e, he, rfl⟩
  have hun := (C34_unacceptable de pool hk (fun q => dictGet q dict) none).1
  by_cases hacc : ∀ e ∈ pool, ∀ new, dictGet e.qualifier dict = some new → ∃ q, new = some q ∧ AcceptableQualifier q
  · left
    obtain ⟨pool', g1, g2, g3⟩ := C34_repeated_qualifiers de pool hk (fun q => dictGet q dict) none hacc
    rw [g1] at h
    cases h
    refine ⟨rfl, ⟨d, p, n, pool', h1, h2, rfl, by rw [hent, g2], ?_⟩, ?_⟩
    · rw [hent]
      intro i e he
      refine ⟨(g3 i e he).1, fun hlast => ?_⟩
      have hin := hmem e (List.mem_of_getElem? he)
      obtain ⟨w, hw, hw'⟩ := hget _ hin
      obtain ⟨new, rfl, hnew⟩ := hacc e (List.mem_of_getElem? he) w hw'
      refine ⟨new, hw, hnew, ?_⟩
      have := (g3 i e he).2 hlast
      simp only [hw'] at this
      rw [this]
      rfl
    · intro e hpf
      cases hpf with
      | generate hfe => exact hf e hfe
      | unacceptable _ k1 k2 k3 k4 k5 =>
        rw [h1] at k1
        cases k1
        have hpn := maps_find hm k2
        rw [maps_find hm h2] at hpn
        cases hpn
        rw [hent] at k3
        obtain ⟨w, hw, hw'⟩ := hget _ k3
        rw [hw] at k4
        cases k4
        obtain ⟨e, he, rfl⟩ := List.mem_map.1 k3
        obtain ⟨new, rfl, hnew⟩ := hacc e he _ hw'
        exact k5 new rfl hnew
  · right
    simp only [not_forall] at hacc
    obtain ⟨e, he, new, hnew, hbad⟩ := hacc
    have : (de.replaceValuePool (fun q => dictGet q dict) none).2 = .error .valueError := by
      rw [hun]
      refine ⟨e, he, new, hnew, fun q hq hacc => hbad ⟨q, hq, hacc⟩⟩
    rw [← h] at this
    simp only at this
    obtain ⟨w, hw, hw'⟩ := hget _ (hmem e he)
    rw [hnew] at hw'
    cases hw'
    exact ⟨_, this, .unacceptable hf h1 h2 (by rw [hent]; exact hmem e he) hw fun q hq hacc => hbad ⟨q, hq, hacc⟩⟩

/-! ## termination -/

/-- a step of a task -/
def PoolLt (env : TransformEnv A D) (app : A) (t' t : PoolTask A D) : Prop :=
  ∃ de g c g', t = .running de g ∧ genStep env app de.discriminator de.poolEntries c g = some g' ∧ t' = afterGenStep de g'

theorem acc_poolTask (t : PoolTask A D) : Acc (PoolLt env app) t := by
  have hd : ∀ de r, Acc (PoolLt env app) (.done de r) := fun de r => ⟨_, fun t ⟨_, _, _, _, h, _⟩ => by cases h⟩
  cases t with
  | skipped de => exact ⟨_, fun t ⟨_, _, _, _, h, _⟩ => by cases h⟩
  | done de r => exact hd de r
  | running de g =>
    induction acc_gen (env := env) (app := app) (discriminator := de.discriminator) (pool := de.poolEntries) g with
    | intro g _ ih =>
      refine ⟨_, fun t ⟨de', g0, c, g', h1, h2, h3⟩ => ?_⟩
      cases h1
      rw [h3]
      have := ih g' ⟨c, h2⟩
      cases g' with
      | converting => exact this
      | gathering => exact this
      | finished r => cases r <;> exact hd _ _

/-- a step of `transform_all_value_pools` -/
theorem acc_top (s : TopState A D) : Acc (fun s' s => ∃ c, topStep env app c s = some s') s := by
  obtain ⟨tasks, err⟩ := s
  induction acc_list (acc_poolTask (env := env) (app := app)) tasks generalizing err with
  | intro tasks _ ih =>
    refine ⟨_, fun s' ⟨c, h⟩ => ?_⟩
    unfold topStep at h
    split at h
    · rename_i de g ht
      cases hg : genStep env app de.discriminator de.poolEntries c.2 g with
      | none => rw [hg] at h; cases h
      | some g' =>
        rw [hg] at h
        cases h
        exact ih _ ⟨c.1, _, _, ht, ⟨de, g, c.2, g', rfl, hg, rfl⟩, rfl⟩ _
    · cases h

end

end Verif
