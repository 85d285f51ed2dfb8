import Verif.Py.Dict
import Mathlib.Data.List.Nodup
import Mathlib.Data.List.Induction
/-! lemmas about dictionaries -/

namespace Verif
variable {κ α : Type} [DecidableEq κ]

theorem mem_keys_dictSet {k k' : κ} {v : α} {d : List (κ × α)} :
    k' ∈ (dictSet k v d).map Prod.fst ↔ k' = k ∨ k' ∈ d.map Prod.fst := by
  induction d with
  | nil => simp [dictSet]
  | cons p d ih =>
    obtain ⟨a, b⟩ := p
    unfold dictSet
    split
    · next h => subst h; simp
    · simp only [List.map_cons, List.mem_cons, ih]; tauto

theorem nodup_dictSet {k : κ} {v : α} {d : List (κ × α)} (h : (d.map Prod.fst).Nodup) :
    ((dictSet k v d).map Prod.fst).Nodup := by
  induction d with
  | nil => simp [dictSet]
  | cons p d ih =>
    obtain ⟨a, b⟩ := p
    simp only [List.map_cons, List.nodup_cons] at h
    unfold dictSet
    split
    · simpa using h
    · next hne =>
      simp only [List.map_cons, List.nodup_cons, mem_keys_dictSet, not_or]
      exact ⟨⟨hne, h.1⟩, ih h.2⟩

theorem mem_dictSet {k k' : κ} {v v' : α} {d : List (κ × α)} (h : (d.map Prod.fst).Nodup) :
    (k', v') ∈ dictSet k v d ↔ (k' = k ∧ v' = v) ∨ (k' ≠ k ∧ (k', v') ∈ d) := by
  induction d with
  | nil => simp [dictSet]
  | cons p d ih =>
    obtain ⟨a, b⟩ := p
    simp only [List.map_cons, List.nodup_cons] at h
    unfold dictSet
    split
    · next he =>
      subst he
      simp only [List.mem_cons, Prod.mk.injEq]
      constructor
      · rintro (⟨rfl, rfl⟩ | hm)
        · exact .inl ⟨rfl, rfl⟩
        · refine .inr ⟨?_, .inr hm⟩
          rintro rfl
          exact h.1 (List.mem_map.2 ⟨_, hm, rfl⟩)
      · rintro (⟨rfl, rfl⟩ | ⟨hne, ⟨rfl, rfl⟩ | hm⟩)
        · exact .inl ⟨rfl, rfl⟩
        · exact absurd rfl hne
        · exact .inr hm
    · next hne =>
      simp only [List.mem_cons, Prod.mk.injEq, ih h.2]
      constructor
      · rintro (⟨rfl, rfl⟩ | ⟨rfl, rfl⟩ | ⟨h1, h2⟩)
        · exact .inr ⟨hne, .inl ⟨rfl, rfl⟩⟩
        · exact .inl ⟨rfl, rfl⟩
        · exact .inr ⟨h1, .inr h2⟩
      · rintro (⟨rfl, rfl⟩ | ⟨h1, ⟨rfl, rfl⟩ | h2⟩)
        · exact .inr (.inl ⟨rfl, rfl⟩)
        · exact .inl ⟨rfl, rfl⟩
        · exact .inr (.inr ⟨h1, h2⟩)

theorem dictUpdate_append (d : List (κ × α)) (ps qs : List (κ × α)) :
    dictUpdate d (ps ++ qs) = dictUpdate (dictUpdate d ps) qs := by simp [dictUpdate]

theorem nodup_dictUpdate {d ps : List (κ × α)} (h : (d.map Prod.fst).Nodup) :
    ((dictUpdate d ps).map Prod.fst).Nodup := by
  induction ps generalizing d with
  | nil => exact h
  | cons p ps ih => exact ih (nodup_dictSet h)

/-- the last assignment to a key wins -/
theorem mem_dictUpdate {k : κ} {v : α} (ps : List (κ × α)) :
    (k, v) ∈ dictUpdate [] ps ↔ ∃ a b, ps = a ++ (k, v) :: b ∧ k ∉ b.map Prod.fst := by
  induction ps using List.reverseRecOn with
  | nil => simp [dictUpdate]
  | append_singleton ps p ih =>
    rw [dictUpdate_append]
    change (k, v) ∈ dictSet p.1 p.2 _ ↔ _
    rw [mem_dictSet (nodup_dictUpdate (by simp)), ih]
    constructor
    · rintro (⟨rfl, rfl⟩ | ⟨hne, a, b, rfl, hb⟩)
      · exact ⟨ps, [], rfl, by simp⟩
      · refine ⟨a, b ++ [p], by simp, ?_⟩
        simp only [List.map_append, List.mem_append, List.map_cons, List.map_nil, List.mem_singleton]
        exact not_or.2 ⟨hb, hne⟩
    · rintro ⟨a, b, h, hb⟩
      rcases List.eq_nil_or_concat b with rfl | ⟨b', q, rfl⟩
      · obtain ⟨rfl, h2⟩ := List.append_inj' h rfl
        simp only [List.cons.injEq, and_true] at h2
        subst h2
        exact .inl ⟨rfl, rfl⟩
      · rw [List.concat_eq_append] at h hb
        have h' : ps ++ [p] = (a ++ (k, v) :: b') ++ [q] := by simp [h]
        obtain ⟨rfl, h2⟩ := List.append_inj' h' rfl
        simp only [List.cons.injEq, and_true] at h2
        subst h2
        simp only [List.map_append, List.mem_append, List.map_cons, List.map_nil, List.mem_singleton, not_or] at hb
        exact .inr ⟨hb.2, a, b', rfl, hb.1⟩

theorem dictGet_eq_some {k : κ} {v : α} {d : List (κ × α)} (h : (d.map Prod.fst).Nodup) :
    dictGet k d = some v ↔ (k, v) ∈ d := by
  induction d with
  | nil => simp [dictGet]
  | cons p d ih =>
    obtain ⟨a, b⟩ := p
    simp only [List.map_cons, List.nodup_cons] at h
    unfold dictGet
    split
    · next he =>
      subst he
      simp only [Option.some.injEq, List.mem_cons, Prod.mk.injEq, true_and]
      constructor
      · rintro rfl; exact .inl rfl
      · rintro (rfl | hm)
        · rfl
        · exact absurd (List.mem_map.2 ⟨_, hm, rfl⟩) h.1
    · next hne =>
      rw [ih h.2]
      simp only [List.mem_cons, Prod.mk.injEq]
      constructor
      · exact .inr
      · rintro (⟨rfl, _⟩ | hm)
        · exact absurd rfl hne
        · exact hm

/-- distinct keys: the dictionary is the list of assignments -/
theorem dictUpdate_nodup (d ps : List (κ × α)) (h : ((d ++ ps).map Prod.fst).Nodup) : dictUpdate d ps = d ++ ps := by
  induction ps generalizing d with
  | nil => simp [dictUpdate]
  | cons p ps ih =>
    have hset : ∀ d : List (κ × α), p.1 ∉ d.map Prod.fst → dictSet p.1 p.2 d = d ++ [p] := by
      intro d hd
      induction d with
      | nil => rfl
      | cons q d ih2 =>
        simp only [List.map_cons, List.mem_cons, not_or] at hd
        unfold dictSet
        rw [if_neg (fun h => hd.1 h.symm), ih2 hd.2]; rfl
    have hp : p.1 ∉ d.map Prod.fst := by
      rw [List.map_append, List.map_cons, List.nodup_append] at h
      intro hm
      exact h.2.2 _ hm _ List.mem_cons_self rfl
    change dictUpdate (dictSet p.1 p.2 d) ps = _
    rw [hset d hp, ih]
    · simp
    · simpa using h

end Verif
