import Verif.Spec.WriteWhile
/-!
# Proofs: several runs that write the same file at the same time
-/

namespace Verif

/-- the byte at a position after writing -/
theorem overwriteAt_getElem? (c : Bytes) (pos : Nat) (piece : Bytes) (p : Nat) :
    (overwriteAt c pos piece)[p]? = if pos ≤ p ∧ p < pos + piece.length then piece[p - pos]?
      else if p < c.length then c[p]? else if p < pos ∧ piece ≠ [] then some 0 else none := by
  unfold overwriteAt
  by_cases he : piece.isEmpty
  · have he' := List.isEmpty_iff.1 he
    subst he'
    rw [if_pos he, if_neg (by simp only [List.length_nil]; omega)]
    split
    · rfl
    · simp only [ne_eq, not_true, and_false, if_false]
      exact List.getElem?_eq_none (by omega)
  · have hne : piece ≠ [] := fun h => he (by rw [h]; rfl)
    simp only [he, Bool.false_eq_true, if_false]
    have hlen : ((c ++ List.replicate (pos - c.length) 0).take pos).length = pos := by
      simp only [List.length_take, List.length_append, List.length_replicate]
      omega
    by_cases h1 : p < pos
    · rw [if_neg (by omega), List.append_assoc, List.getElem?_append_left (by omega), List.getElem?_take, if_pos h1]
      by_cases h2 : p < c.length
      · rw [if_pos h2, List.getElem?_append_left h2]
      · rw [if_neg h2, if_pos ⟨h1, hne⟩, List.getElem?_append_right (by omega), List.getElem?_replicate, if_pos (by omega)]
    · by_cases h2 : p < pos + piece.length
      · rw [if_pos ⟨by omega, h2⟩, List.getElem?_append_left (by rw [List.length_append]; omega),
          List.getElem?_append_right (by omega), hlen]
      · rw [if_neg (by omega), List.getElem?_append_right (by rw [List.length_append]; omega), List.length_append, hlen,
          List.getElem?_drop]
        have : pos + piece.length + (p - (pos + piece.length)) = p := by omega
        rw [this]
        split
        · rfl
        · rw [if_neg (by omega)]
          exact List.getElem?_eq_none (by omega)

/-- as long as the runs write -/
structure WritersInv (new : Nat → Bytes) (s : WritersState) : Prop where
  bound : ∀ i pos, s.written i = some pos → pos ≤ (new i).length
  /-- the file is there -/
  content : (∃ i, s.written i ≠ none) → s.content ≠ none
  /-- every byte is from one of the runs, or in a gap -/
  bytes : ∀ c, s.content = some c → (∃ i, s.written i ≠ none) → ∀ p x, c[p]? = some x →
    (x = 0 ∧ ∃ i, s.written i ≠ none ∧ p < (new i).length) ∨ ∃ i, s.written i ≠ none ∧ (new i)[p]? = some x
  /-- the run that has opened the file last: at the positions it has passed there is a byte of one of the runs -/
  last : ∀ c, s.content = some c → (∃ i, s.written i ≠ none) → ∃ i pos, s.written i = some pos ∧ pos ≤ c.length ∧
    ∀ p, p < pos → ∃ j, s.written j ≠ none ∧ p < (new j).length ∧ c[p]? = (new j)[p]?

theorem writers_start (new : Nat → Bytes) (old : Option Bytes) : WritersInv new (WritersState.start old) :=
  ⟨fun _ _ h => (by cases h), fun ⟨_, h⟩ => absurd rfl h, fun _ _ ⟨_, h⟩ => absurd rfl h, fun _ _ ⟨_, h⟩ => absurd rfl h⟩

theorem writers_step {new : Nat → Bytes} {s : WritersState} (inv : WritersInv new s) (op : WritersOp) : WritersInv new (s.step new op) := by
  cases op with
  | openFile i =>
    simp only [WritersState.step]
    cases hw : s.written i with
    | some pos => exact inv
    | none =>
      refine ⟨fun k pos hk => ?_, fun _ => by simp, fun c hc _ p x hx => ?_, fun c hc _ => ?_⟩
      · simp only at hk
        split at hk
        · cases hk; exact Nat.zero_le _
        · exact inv.bound k pos hk
      · cases hc; cases hx
      · exact ⟨i, 0, by simp, Nat.zero_le _, fun p hp => absurd hp (Nat.not_lt_zero _)⟩
  | write i n =>
    simp only [WritersState.step]
    cases hw : s.written i with
    | none => exact inv
    | some pos =>
      cases hc : s.content with
      | none => simp only; exact inv
      | some c =>
        simp only
        have hopen : ∃ k, s.written k ≠ none := ⟨i, by rw [hw]; simp⟩
        have hb := inv.bound i pos hw
        have hlen : (((new i).drop pos).take n).length ≤ (new i).length - pos := by
          simp only [List.length_take, List.length_drop]
          omega
        have hopened : ∀ k, s.written k ≠ none →
            (if k = i then some (pos + (((new i).drop pos).take n).length) else s.written k) ≠ none := by
          intro k hk
          split
          · simp
          · exact hk
        have hpiece : ∀ p, pos ≤ p → p < pos + (((new i).drop pos).take n).length →
            (((new i).drop pos).take n)[p - pos]? = (new i)[p]? := by
          intro p h1 h2
          have h3 : p - pos < (((new i).drop pos).take n).length := by omega
          have h4 : p - pos < n := by
            simp only [List.length_take] at h3
            omega
          rw [List.getElem?_take, if_pos h4, List.getElem?_drop]
          congr 1
          omega
        refine ⟨fun k q hk => ?_, fun _ => by simp, fun c' hc' _ p x hx => ?_, fun c' hc' _ => ?_⟩
        · simp only at hk
          split at hk
          · rename_i hki
            subst hki
            cases hk
            omega
          · exact inv.bound k q hk
        · injection hc' with hc'
          subst hc'
          rw [overwriteAt_getElem?] at hx
          split at hx
          · rename_i hp
            rw [hpiece p hp.1 hp.2] at hx
            exact .inr ⟨i, hopened i (by rw [hw]; simp), hx⟩
          · split at hx
            · rcases inv.bytes c hc hopen p x hx with ⟨h1, k, h2, h3⟩ | ⟨k, h2, h3⟩
              · exact .inl ⟨h1, k, hopened k h2, h3⟩
              · exact .inr ⟨k, hopened k h2, h3⟩
            · split at hx
              · rename_i hp
                cases hx
                exact .inl ⟨rfl, i, hopened i (by rw [hw]; simp), by omega⟩
              · cases hx
        · injection hc' with hc'
          subst hc'
          obtain ⟨k, q, hk, hq, hall⟩ := inv.last c hc hopen
          have hsame : ∀ p, p < q → ∃ j, (if j = i then some (pos + (((new i).drop pos).take n).length) else s.written j) ≠ none ∧
              p < (new j).length ∧ (overwriteAt c pos (((new i).drop pos).take n))[p]? = (new j)[p]? := by
            intro p hp
            rw [overwriteAt_getElem?]
            by_cases hin : pos ≤ p ∧ p < pos + (((new i).drop pos).take n).length
            · rw [if_pos hin, hpiece p hin.1 hin.2]
              exact ⟨i, hopened i (by rw [hw]; simp), by omega, rfl⟩
            · rw [if_neg hin, if_pos (by omega)]
              obtain ⟨j, h1, h2, h3⟩ := hall p hp
              exact ⟨j, hopened j h1, h2, h3⟩
          have hlong : ∀ m : Nat, (∀ p, p < m → (overwriteAt c pos (((new i).drop pos).take n))[p]? ≠ none) →
              m ≤ (overwriteAt c pos (((new i).drop pos).take n)).length := by
            intro m hm
            rcases Nat.lt_or_ge (overwriteAt c pos (((new i).drop pos).take n)).length m with h | h
            · exact absurd (List.getElem?_eq_none (Nat.le_refl _)) (hm _ h)
            · exact h
          by_cases hki : k = i
          · subst hki
            rw [hw] at hk
            injection hk with hk
            subst hk
            have hnew : ∀ p, p < pos + (((new k).drop pos).take n).length → ∃ j,
                (if j = k then some (pos + (((new k).drop pos).take n).length) else s.written j) ≠ none ∧
                p < (new j).length ∧ (overwriteAt c pos (((new k).drop pos).take n))[p]? = (new j)[p]? := by
              intro p hp
              by_cases h1 : p < pos
              · exact hsame p h1
              · rw [overwriteAt_getElem?, if_pos ⟨by omega, hp⟩, hpiece p (by omega) hp]
                exact ⟨k, by simp, by omega, rfl⟩
            refine ⟨k, _, by simp, hlong _ fun p hp => ?_, hnew⟩
            obtain ⟨j, _, h2, h3⟩ := hnew p hp
            rw [h3, List.getElem?_eq_getElem h2]
            simp
          · refine ⟨k, q, by simp [hki, hk], hlong _ fun p hp => ?_, hsame⟩
            obtain ⟨j, _, h2, h3⟩ := hsame p hp
            rw [h3, List.getElem?_eq_getElem h2]
            simp

theorem writers_run {new : Nat → Bytes} (ops : List WritersOp) : ∀ {s : WritersState}, WritersInv new s → WritersInv new (s.run new ops) := by
  induction ops with
  | nil => exact fun h => h
  | cons op ops ih => exact fun h => ih (writers_step h op)

end Verif
