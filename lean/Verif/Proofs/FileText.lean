import Verif.Py.Files
import Verif.Py.JsonText
import Verif.Proofs.JsonText
/-! lemmas about text files -/

namespace Verif

theorem decodeUtf8_encodeUtf8 (s : PyStr) : decodeUtf8 (encodeUtf8 s) = .ok (universalNewlines s) := by
  have h : (encodeUtf8 s).toByteArray.utf8Decode? = some s.toArray := by
    have := List.utf8Decode?_utf8Encode (l := s)
    unfold List.utf8Encode at this
    exact this
  unfold decodeUtf8
  rw [h]

theorem universalNewlines_self : ∀ {s : PyStr}, '\r' ∉ s → universalNewlines s = s
  | [], _ => rfl
  | c :: s, h => by
    have hc : c ≠ '\r' := fun hc => h (by rw [hc]; exact List.mem_cons_self)
    rw [universalNewlines, universalNewlines_self fun hs => h (List.mem_cons_of_mem _ hs)]
    · rintro s' rfl; exact absurd rfl hc
    · rintro rfl; exact absurd rfl hc

theorem cr_hexChar (n : Nat) (h : n < 16) : hexChar n ≠ '\r' := by
  have : ∀ n, n < 16 → hexChar n ≠ '\r' := by decide
  exact this n h

theorem cr_hexDigits (k n : Nat) : '\r' ∉ hexDigits k n := by
  induction k generalizing n with
  | zero => simp [hexDigits]
  | succ k ih =>
    unfold hexDigits
    intro h
    rcases List.mem_append.1 h with h | h
    · exact ih _ h
    · exact cr_hexChar (n % 16) (Nat.mod_lt _ (by omega)) (List.mem_singleton.1 h).symm

theorem cr_uEscape (n : Nat) : '\r' ∉ uEscape n := by
  unfold uEscape
  intro h
  simp only [List.mem_cons] at h
  rcases h with h | h | h
  · exact absurd h (by decide)
  · exact absurd h (by decide)
  · exact cr_hexDigits _ _ h

theorem cr_jsonEscape (ascii : Bool) (c : Char) : '\r' ∉ jsonEscape ascii c := by
  unfold jsonEscape
  dsimp only
  split; · decide
  split; · decide
  split; · decide
  split; · decide
  split; · decide
  split; · decide
  split; · decide
  split; · exact cr_uEscape _
  split
  · split
    · exact cr_uEscape _
    · intro h
      rcases List.mem_append.1 h with h | h <;> exact cr_uEscape _ h
  · rename_i h13 _ _ _ _ _
    intro h
    rw [List.mem_singleton] at h
    subst h
    exact h13 rfl

theorem cr_jsonQuote (ascii : Bool) (s : PyStr) : '\r' ∉ jsonQuote ascii s := by
  unfold jsonQuote
  intro h
  simp only [List.mem_cons, List.mem_append, List.mem_flatMap, List.not_mem_nil, or_false] at h
  rcases h with h | ⟨c, _, h⟩ | h
  · exact absurd h (by decide)
  · exact cr_jsonEscape ascii c h
  · exact absurd h (by decide)

theorem cr_intToDec (i : Int) : '\r' ∉ intToDec i := by
  have hd : ∀ n, '\r' ∉ natToDec n := fun n h => by
    have := (natToDecAux_ascii n n (Nat.le_refl n)).1 _ h
    exact absurd this (by decide)
  cases i with
  | ofNat n => exact hd n
  | negSucc n =>
    intro h
    rcases List.mem_cons.1 h with h | h
    · exact absurd h (by decide)
    · exact hd _ h

theorem cr_newline (st : JsonStyle) (level : Nat) : '\r' ∉ st.newline level := by
  unfold JsonStyle.newline
  split
  · simp
  · intro h
    rcases List.mem_cons.1 h with h | h
    · exact absurd h (by decide)
    · exact absurd (List.eq_of_mem_replicate h) (by decide)

theorem cr_separator (st : JsonStyle) (level : Nat) : '\r' ∉ st.separator level := by
  unfold JsonStyle.separator
  split
  · decide
  · intro h
    rcases List.mem_cons.1 h with h | h
    · exact absurd h (by decide)
    · exact cr_newline _ _ h

mutual
theorem cr_render (st : JsonStyle) : ∀ (level : Nat) (j : Json), '\r' ∉ st.render level j
  | _, .null => by simp only [JsonStyle.render]; decide
  | _, .bool true => by simp only [JsonStyle.render]; decide
  | _, .bool false => by simp only [JsonStyle.render]; decide
  | _, .num i => by simp only [JsonStyle.render]; exact cr_intToDec i
  | _, .float _ => by simp only [JsonStyle.render]; decide
  | _, .str s => by simp only [JsonStyle.render]; exact cr_jsonQuote _ s
  | _, .arr [] => by simp only [JsonStyle.render]; decide
  | level, .arr (j :: l) => by
    simp only [JsonStyle.render, List.mem_cons, List.mem_append, List.not_mem_nil, or_false, not_or]
    exact ⟨by decide, cr_newline _ _, cr_render st _ j, cr_renderItems st _ l, cr_newline _ _, by decide⟩
  | _, .obj [] => by simp only [JsonStyle.render]; decide
  | level, .obj ((k, v) :: d) => by
    simp only [JsonStyle.render, List.mem_cons, List.mem_append, List.not_mem_nil, or_false, not_or]
    exact ⟨by decide, cr_newline _ _, cr_jsonQuote _ _, by decide, by decide, cr_render st _ v, cr_renderMembers st _ d,
      cr_newline _ _, by decide⟩
theorem cr_renderItems (st : JsonStyle) : ∀ (level : Nat) (l : List Json), '\r' ∉ st.renderItems level l
  | _, [] => by simp [JsonStyle.renderItems]
  | level, j :: l => by
    simp only [JsonStyle.renderItems, List.mem_append, not_or]
    exact ⟨cr_separator _ _, cr_render st _ j, cr_renderItems st _ l⟩
theorem cr_renderMembers (st : JsonStyle) : ∀ (level : Nat) (d : List (PyStr × Json)), '\r' ∉ st.renderMembers level d
  | _, [] => by simp [JsonStyle.renderMembers]
  | level, (k, v) :: d => by
    simp only [JsonStyle.renderMembers, List.mem_cons, List.mem_append, not_or]
    exact ⟨cr_separator _ _, cr_jsonQuote _ _, by decide, by decide, cr_render st _ v, cr_renderMembers st _ d⟩
end

/-- a JSON text that was written to a file is read back unchanged -/
theorem decodeUtf8_jsonDumps (st : JsonStyle) (j : Json) : decodeUtf8 (encodeUtf8 (jsonDumps st j)) = .ok (jsonDumps st j) := by
  rw [decodeUtf8_encodeUtf8]
  exact congrArg _ (universalNewlines_self (cr_render st 0 _))

end Verif
