import Verif.Spec.ReadWhile
/-!
# Proofs: reading a MAUS file while it is written (C119)
-/

namespace Verif

/-- what holds at any time -/
structure ReadWriteInv (old : Option Bytes) (new : Bytes) (s : ReadWriteState) : Prop where
  untouched : s.pending = none → s.content = old
  opened : ∀ rest : Bytes, s.pending = some rest → ∃ w : Bytes, s.content = some w ∧ w ++ rest = new
  reading : ∀ got : Bytes, s.reader = .reading got →
    ∃ k m : Nat, got = mixed (old.getD []) new k m ∧ k ≤ (old.getD []).length ∧
      (s.pending = none → got = (old.getD []).take k ∧ old ≠ none) ∧
      (∀ rest : Bytes, s.pending = some rest → m ≤ new.length - rest.length)
  done : ∀ got : Bytes, s.reader = .done (some got) → ∃ k m : Nat, got = mixed (old.getD []) new k m ∧ k ≤ (old.getD []).length
  missing : s.reader = .done none → old = none

theorem mixed_zero (old new : Bytes) (k : Nat) : mixed old new k 0 = old.take k := by simp [mixed]

theorem readWrite_start (old : Option Bytes) (new : Bytes) : ReadWriteInv old new (.start old) where
  untouched _ := rfl
  opened _ h := by cases h
  reading _ h := by cases h
  done _ h := by cases h
  missing h := by cases h

/-- the next piece of the new content -/
theorem mixed_next (old new w rest : Bytes) (k m n : Nat) (hk : k ≤ old.length) (hw : w ++ rest = new) (hm : m ≤ w.length)
    (hne : (w.drop (mixed old new k m).length).take n ≠ []) :
    mixed old new k m ++ (w.drop (mixed old new k m).length).take n =
      mixed old new k ((mixed old new k m).length + ((w.drop (mixed old new k m).length).take n).length) ∧
    (mixed old new k m).length + ((w.drop (mixed old new k m).length).take n).length ≤ w.length := by
  subst hw
  have hlen : (mixed old (w ++ rest) k m).length = max k m := by
    simp only [mixed, List.length_append, List.length_take, List.length_drop]
    omega
  have hp : (w.drop (max k m)).length ≠ 0 := by
    intro h
    apply hne
    rw [hlen, List.length_eq_zero_iff.1 h]
    simp
  have hlt : max k m < w.length := by
    simp only [List.length_drop] at hp
    omega
  rw [hlen]
  refine ⟨?_, by simp only [List.length_take, List.length_drop]; omega⟩
  have hmin : max k m + ((w.drop (max k m)).take n).length ≤ w.length := by
    simp only [List.length_take, List.length_drop]; omega
  unfold mixed
  rw [List.append_assoc]
  congr 1
  rw [List.take_append_of_le_length (by omega), List.take_append_of_le_length hmin]
  -- all pieces are pieces of `w`
  apply List.ext_getElem?
  intro i
  simp only [List.getElem?_append, List.getElem?_drop, List.getElem?_take, List.length_drop, List.length_take]
  split
  · rename_i h1
    rw [if_pos (by omega), if_pos (by omega)]
  · rename_i h1
    have e : max k m + (i - (min m w.length - k)) = k + i := by omega
    rw [e]
    by_cases h2 : i - (min m w.length - k) < n
    · rw [if_pos h2]
      by_cases h3 : k + i < w.length
      · rw [if_pos (by omega)]
      · have : w[k + i]? = none := List.getElem?_eq_none (by omega)
        rw [this]
        split <;> rfl
    · rw [if_neg h2, if_neg (by omega)]

theorem readWrite_step {old : Option Bytes} {new : Bytes} {s : ReadWriteState} (h : ReadWriteInv old new s) (op : ReadWriteOp) :
    ReadWriteInv old new (s.step new op) := by
  cases op with
  | truncate =>
    simp only [ReadWriteState.step]
    cases hp : s.pending with
    | some rest => exact h
    | none =>
      refine ⟨fun e => (by cases e), fun rest e => ?_, fun got e => ?_, h.done, h.missing⟩
      · cases e
        exact ⟨[], rfl, rfl⟩
      · obtain ⟨k, m, h1, h2, h3, _⟩ := h.reading got e
        refine ⟨k, 0, by rw [mixed_zero]; exact (h3 hp).1, h2, fun e => (by cases e), fun rest e => Nat.zero_le _⟩
  | write n =>
    simp only [ReadWriteState.step]
    cases hp : s.pending with
    | none => exact h
    | some rest =>
      obtain ⟨w, hc, hw⟩ := h.opened rest hp
      rw [hc]
      refine ⟨fun e => (by cases e), fun rest' e => ?_, fun got e => ?_, h.done, h.missing⟩
      · cases e
        exact ⟨w ++ rest.take n, rfl, by rw [List.append_assoc, List.take_append_drop]; exact hw⟩
      · obtain ⟨k, m, h1, h2, _, h4⟩ := h.reading got e
        refine ⟨k, m, h1, h2, fun e => (by cases e), fun rest' e => ?_⟩
        cases e
        have := h4 rest hp
        simp only [List.length_drop]
        omega
  | openFile =>
    simp only [ReadWriteState.step]
    cases hr : s.reader with
    | reading got => exact h
    | done r => exact h
    | before =>
      simp only
      refine ⟨h.untouched, h.opened, fun got e => ?_, fun got e => ?_, fun e => ?_⟩
      · simp only at e
        split at e
        · rename_i hc
          cases e
          refine ⟨0, 0, by simp [mixed], Nat.zero_le _, fun hp => ⟨by simp, ?_⟩, fun rest _ => Nat.zero_le _⟩
          intro ho
          have := h.untouched hp
          rw [this, ho] at hc
          cases hc
        · cases e
      · simp only at e
        split at e <;> cases e
      · simp only at e
        split at e
        · cases e
        · rename_i hc
          cases hp : s.pending with
          | none =>
            have := h.untouched hp
            rw [this] at hc
            cases old with
            | none => rfl
            | some _ => simp at hc
          | some rest =>
            obtain ⟨w, hw, _⟩ := h.opened rest hp
            rw [hw] at hc
            simp at hc
  | read n =>
    simp only [ReadWriteState.step]
    cases hr : s.reader with
    | before => exact h
    | done r => exact h
    | reading got =>
      simp only
      obtain ⟨k, m, h1, h2, h3, h4⟩ := h.reading got hr
      refine ⟨h.untouched, h.opened, fun got' e => ?_, fun got' e => ?_, fun e => ?_⟩
      · simp only at e
        split at e
        · cases e
        · rename_i hne
          injection e with e
          subst e
          have hne' : List.take (n + 1) (List.drop got.length (s.content.getD [])) ≠ [] := by
            intro hx
            rw [hx] at hne
            exact hne rfl
          cases hp : s.pending with
          | none =>
            obtain ⟨h3a, h3b⟩ := h3 hp
            rw [h.untouched hp] at hne' ⊢
            have hlen : got.length = k := by rw [h3a]; simp; omega
            rw [hlen] at hne' ⊢
            have hadd : got ++ ((old.getD []).drop k).take (n + 1) = (old.getD []).take (k + (n + 1)) := by
              rw [h3a]
              exact List.take_add.symm
            have htake : (old.getD []).take (k + (n + 1)) = (old.getD []).take (min (k + (n + 1)) (old.getD []).length) := by
              rw [List.take_eq_take_iff]
              omega
            refine ⟨min (k + (n + 1)) (old.getD []).length, 0, ?_, Nat.min_le_right _ _, fun _ => ⟨?_, h3b⟩, fun rest e => (by cases e)⟩
            · rw [mixed_zero, hadd, htake]
            · rw [hadd, htake]
          | some rest =>
            obtain ⟨w, hc, hw⟩ := h.opened rest hp
            rw [hc] at hne' ⊢
            simp only [Option.getD_some] at hne' ⊢
            have hm := h4 rest hp
            have hwl : w.length = new.length - rest.length := by rw [← hw]; simp
            rw [h1] at hne' ⊢
            obtain ⟨e1, e2⟩ := mixed_next _ _ _ _ k m (n + 1) h2 hw (by omega) hne'
            refine ⟨k, _, e1, h2, fun e => (by cases e), fun rest' e => ?_⟩
            cases e
            omega
      · simp only at e
        split at e
        · injection e with e
          injection e with e
          subst e
          exact ⟨k, m, h1, h2⟩
        · cases e
      · simp only at e
        split at e <;> cases e

theorem readWrite_run {old : Option Bytes} {new : Bytes} (ops : List ReadWriteOp) : ∀ {s : ReadWriteState}, ReadWriteInv old new s →
    ReadWriteInv old new (s.run new ops) := by
  induction ops with
  | nil => intro s h; exact h
  | cons op ops ih => intro s h; exact ih (readWrite_step h op)

end Verif
