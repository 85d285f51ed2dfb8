import Verif.Proofs.WriteWhile
import Verif.Props.ReadWhile
import Verif.Props.JsonGrammar
/-!
# C121: several runs that write the same MAUS file at the same time
-/

namespace Verif

/-! ## zeros -/

theorem jsonBlank_noNul {w : PyStr} (h : JsonBlank w) : Char.ofNat 0 ∉ w := by
  intro hm
  rcases h _ hm with e | e | e | e <;> revert e <;> decide

theorem hexDigit_noNul {c : Char} {n : Nat} (h : HexDigit c n) : c ≠ Char.ofNat 0 := by
  cases h with
  | digit n h => rcases n with _ | _ | _ | _ | _ | _ | _ | _ | _ | _ | n <;> first | decide | omega
  | lower n h => rcases n with _ | _ | _ | _ | _ | _ | n <;> first | decide | omega
  | upper n h => rcases n with _ | _ | _ | _ | _ | _ | n <;> first | decide | omega

theorem jsonUnits_noNul {s : PyStr} {u : List Nat} (h : JsonUnits s u) : Char.ofNat 0 ∉ s := by
  induction h with
  | nil => simp
  | plain h1 h2 h3 _ ih =>
    rw [List.mem_cons, not_or]
    refine ⟨fun e => ?_, ih⟩
    rw [← e] at h3
    revert h3
    decide
  | escape hx _ ih =>
    simp only [List.mem_cons, not_or]
    refine ⟨by decide, ?_, ih⟩
    cases hx <;> decide
  | hex ha hb hc hd _ ih =>
    simp only [List.mem_cons, not_or]
    exact ⟨by decide, by decide, (hexDigit_noNul ha).symm, (hexDigit_noNul hb).symm, (hexDigit_noNul hc).symm, (hexDigit_noNul hd).symm, ih⟩

theorem jsonString_noNul {t s : PyStr} (h : JsonString t s) : Char.ofNat 0 ∉ t := by
  cases h with
  | mk h _ =>
    simp only [List.mem_cons, List.mem_append, not_or]
    exact ⟨by decide, jsonUnits_noNul h, by decide, by simp⟩

theorem digits_noNul {ds : PyStr} (h : ∀ x ∈ ds, 48 ≤ x.toNat ∧ x.toNat ≤ 57) : Char.ofNat 0 ∉ ds := by
  intro hm
  have := (h _ hm).1
  revert this
  decide

theorem jsonDigits_noNul {ds : PyStr} (h : JsonDigits ds) : Char.ofNat 0 ∉ ds := by
  rcases h with rfl | ⟨c, t, rfl, _, h⟩
  · decide
  · exact digits_noNul h

theorem jsonDecimal_noNul {t : PyStr} {q : ℚ} (h : JsonDecimal t q) : Char.ofNat 0 ∉ t := by
  cases h with
  | mk h hf hx _ =>
    simp only [List.mem_append, not_or]
    refine ⟨jsonDigits_noNul h, ?_, ?_⟩
    · cases hf with
      | missing => simp
      | digits h =>
        rw [List.mem_cons, not_or]
        exact ⟨by decide, digits_noNul h.2⟩
    · cases hx with
      | missing => simp
      | plain hc h =>
        rw [List.mem_cons, not_or]
        exact ⟨by rcases hc with rfl | rfl <;> decide, digits_noNul h.2⟩
      | plus hc h =>
        simp only [List.mem_cons, not_or]
        exact ⟨by rcases hc with rfl | rfl <;> decide, by decide, digits_noNul h.2⟩
      | minus hc h =>
        simp only [List.mem_cons, not_or]
        exact ⟨by rcases hc with rfl | rfl <;> decide, by decide, digits_noNul h.2⟩

mutual
theorem jsonValue_noNul : ∀ {t : PyStr} {j : Json}, JsonValue t j → Char.ofNat 0 ∉ t
  | _, _, .null => by decide
  | _, _, .true => by decide
  | _, _, .false => by decide
  | _, _, .integer h => jsonDigits_noNul h
  | _, _, .negative h => by
    rw [List.mem_cons, not_or]
    exact ⟨by decide, jsonDigits_noNul h⟩
  | _, _, .float h _ => jsonDecimal_noNul h
  | _, _, .negativeFloat h _ => by
    rw [List.mem_cons, not_or]
    exact ⟨by decide, jsonDecimal_noNul h⟩
  | _, _, .nan => by decide
  | _, _, .infinity => by decide
  | _, _, .negativeInfinity => by decide
  | _, _, .string h => jsonString_noNul h
  | _, _, .emptyArray hw => by
    simp only [List.mem_cons, List.mem_append, not_or]
    exact ⟨by decide, jsonBlank_noNul hw, by decide, by simp⟩
  | _, _, .array h => by
    simp only [List.mem_cons, List.mem_append, not_or]
    exact ⟨by decide, jsonItems_noNul h, by decide, by simp⟩
  | _, _, .emptyObject hw => by
    simp only [List.mem_cons, List.mem_append, not_or]
    exact ⟨by decide, jsonBlank_noNul hw, by decide, by simp⟩
  | _, _, .object h _ => by
    simp only [List.mem_cons, List.mem_append, not_or]
    exact ⟨by decide, jsonMembers_noNul h, by decide, by simp⟩
theorem jsonItems_noNul : ∀ {t : PyStr} {l : List Json}, JsonItems t l → Char.ofNat 0 ∉ t
  | _, _, .last hw h hw' => by
    simp only [List.mem_append, not_or]
    exact ⟨jsonBlank_noNul hw, jsonValue_noNul h, jsonBlank_noNul hw'⟩
  | _, _, .cons hw h hw' hl => by
    simp only [List.mem_cons, List.mem_append, not_or]
    exact ⟨jsonBlank_noNul hw, jsonValue_noNul h, jsonBlank_noNul hw', by decide, jsonItems_noNul hl⟩
theorem jsonMembers_noNul : ∀ {t : PyStr} {l : List (PyStr × Json)}, JsonMembers t l → Char.ofNat 0 ∉ t
  | _, _, .last hw hk h1 h2 h h3 => by
    simp only [List.mem_cons, List.mem_append, not_or]
    exact ⟨jsonBlank_noNul hw, jsonString_noNul hk, jsonBlank_noNul h1, by decide, jsonBlank_noNul h2, jsonValue_noNul h, jsonBlank_noNul h3⟩
  | _, _, .cons hw hk h1 h2 h h3 hl => by
    simp only [List.mem_cons, List.mem_append, not_or]
    exact ⟨jsonBlank_noNul hw, jsonString_noNul hk, jsonBlank_noNul h1, by decide, jsonBlank_noNul h2, jsonValue_noNul h, jsonBlank_noNul h3,
      by decide, jsonMembers_noNul hl⟩
end

theorem utf8EncodeChar_zero {c : Char} (h : 0 ∈ String.utf8EncodeChar c) : c = Char.ofNat 0 := by
  have key : ∀ n : Nat, n < 256 → (0 : UInt8) = UInt8.ofNat n → n = 0 := by
    intro n hn h
    have h := congrArg UInt8.toNat h
    rw [UInt8.toNat_ofNat_of_lt' hn] at h
    exact h.symm
  unfold String.utf8EncodeChar at h
  simp only at h
  have hz : c.val.toNat = 0 := by
    split at h
    · rw [List.mem_singleton] at h
      exact key _ (by omega) h
    · split at h
      · simp only [List.mem_cons, List.not_mem_nil, or_false] at h
        rcases h with h | h <;> have := key _ (by omega) h <;> omega
      · split at h
        · simp only [List.mem_cons, List.not_mem_nil, or_false] at h
          rcases h with h | h | h <;> have := key _ (by omega) h <;> omega
        · simp only [List.mem_cons, List.not_mem_nil, or_false] at h
          rcases h with h | h | h | h <;> have := key _ (by omega) h <;> omega
  rw [← Char.ofNat_toNat c]
  exact congrArg Char.ofNat hz

theorem encodeUtf8_zero {s : PyStr} (h : 0 ∈ encodeUtf8 s) : Char.ofNat 0 ∈ s := by
  unfold encodeUtf8 at h
  obtain ⟨c, h1, h2⟩ := List.mem_flatMap.1 h
  rw [← utf8EncodeChar_zero h2]
  exact h1

theorem universalNewlines_nul : ∀ s : PyStr, Char.ofNat 0 ∈ s → Char.ofNat 0 ∈ universalNewlines s
  | [], h => h
  | c :: s, h => by
    unfold universalNewlines
    split
    · rename_i heq; cases heq
    · rename_i t heq
      cases heq
      simp only [List.mem_cons] at h
      rcases h with h | h | h
      · exact absurd h (by decide)
      · exact absurd h (by decide)
      · exact List.mem_cons_of_mem _ (universalNewlines_nul t h)
    · rename_i t _ heq
      cases heq
      simp only [List.mem_cons] at h
      rcases h with h | h
      · exact absurd h (by decide)
      · exact List.mem_cons_of_mem _ (universalNewlines_nul _ h)
    · rename_i heq
      cases heq
      rcases List.mem_cons.1 h with h | h
      · exact h ▸ List.mem_cons_self
      · exact List.mem_cons_of_mem _ (universalNewlines_nul _ h)

/-- a file with a zero in it is no JSON document -/
theorem mausOfBytes_zero {c : Bytes} (h : 0 ∈ c) : ∃ e, mausOfBytes (some c) = .error e := by
  simp only [mausOfBytes, bind, Except.bind]
  cases hd : decodeUtf8 c with
  | error e => exact ⟨e, rfl⟩
  | ok t =>
    simp only
    cases hj : jsonLoads t with
    | error e => exact ⟨e, rfl⟩
    | ok j =>
      exfalso
      obtain ⟨w, v, w', ht, hw, hv, hw'⟩ := (C85_documents t j).1 hj
      have hn : Char.ofNat 0 ∉ t := by
        rw [ht]
        simp only [List.mem_append, not_or]
        exact ⟨jsonBlank_noNul hw, jsonValue_noNul hv, jsonBlank_noNul hw'⟩
      apply hn
      unfold decodeUtf8 at hd
      split at hd
      · cases hd
      · rename_i a ha
        rw [utf8Decode?_some ha] at h
        have hm := universalNewlines_nul _ (encodeUtf8_zero h)
        injection hd with hd
        rwa [← hd]

/-- **C121** what the file can contain while the runs write, and if they are killed: every byte is from one of the runs, at the position
where this run has it, or a zero at a position where one of the runs has a byte -/
theorem C121_bytes (new : Nat → Bytes) (old : Option Bytes) (ops : List WritersOp)
    (hopen : ∃ i, ((WritersState.start old).run new ops).written i ≠ none) :
    ∃ c, ((WritersState.start old).run new ops).content = some c ∧ ∀ p x, c[p]? = some x →
      (x = 0 ∧ ∃ i, ((WritersState.start old).run new ops).written i ≠ none ∧ p < (new i).length) ∨
      ∃ i, ((WritersState.start old).run new ops).written i ≠ none ∧ (new i)[p]? = some x := by
  have inv := writers_run (new := new) ops (writers_start new old)
  cases hc : ((WritersState.start old).run new ops).content with
  | none => exact absurd hc (inv.content hopen)
  | some c => exact ⟨c, rfl, inv.bytes c hc hopen⟩

/-- **C121** (partial: only for runs that write the same) if all runs that have opened the file write the same and have written everything,
then the file contains this, in whatever order the runs have opened and written. Missing: runs that write different MAUS; for them the claim
is false (`C121_mixture`). -/
theorem C121_same_partial (new : Nat → Bytes) (old : Option Bytes) (ops : List WritersOp) (b : Bytes)
    (hsame : ∀ i, ((WritersState.start old).run new ops).written i ≠ none → new i = b)
    (hfin : ((WritersState.start old).run new ops).Finished new) :
    ((WritersState.start old).run new ops).content = some b := by
  have inv := writers_run (new := new) ops (writers_start new old)
  obtain ⟨c, hc, hbytes⟩ := C121_bytes new old ops hfin.1
  obtain ⟨i, pos, hi, hpos, hall⟩ := inv.last c hc hfin.1
  have hposb : pos = b.length := by rw [hfin.2 i pos hi, hsame i (by rw [hi]; simp)]
  rw [hc]
  congr 1
  apply List.ext_getElem?
  intro p
  by_cases hp : p < pos
  · obtain ⟨j, h1, _, h2⟩ := hall p hp
    rw [h2, hsame j h1]
  · rw [List.getElem?_eq_none (l := b) (by omega)]
    cases hx : c[p]? with
    | none => rfl
    | some x =>
      exfalso
      rcases hbytes p x hx with ⟨_, j, h1, h2⟩ | ⟨j, h1, h2⟩
      · rw [hsame j h1] at h2; omega
      · rw [hsame j h1] at h2
        have := (List.getElem?_eq_some_iff.1 h2).1
        omega

/-- **C121** (partial: only for runs that write the same MAUS) wherever the runs have been killed, `get_maus` raises, unless the file is
complete -/
theorem C121_killed_partial (maus : DeepAhb) (new : Nat → Bytes) (old : Option Bytes) (ops : List WritersOp)
    (hopen : ∃ i, ((WritersState.start old).run new ops).written i ≠ none)
    (hsame : ∀ i, ((WritersState.start old).run new ops).written i ≠ none → new i = mausBytes maus) :
    ((WritersState.start old).run new ops).content = some (mausBytes maus) ∨
      ∃ e, mausOfBytes ((WritersState.start old).run new ops).content = .error e := by
  obtain ⟨c, hc, hbytes⟩ := C121_bytes new old ops hopen
  rw [hc]
  by_cases h0 : (0 : UInt8) ∈ c
  · exact .inr (mausOfBytes_zero h0)
  · have hprefix : c <+: mausBytes maus := by
      refine ⟨(mausBytes maus).drop c.length, ?_⟩
      apply List.ext_getElem?
      intro p
      by_cases hp : p < c.length
      · rw [List.getElem?_append_left hp]
        rcases hbytes p c[p] (List.getElem?_eq_getElem hp) with ⟨h, _⟩ | ⟨i, h1, h2⟩
        · exact absurd (h ▸ List.getElem_mem hp) h0
        · rw [hsame i h1] at h2
          rw [h2, List.getElem?_eq_getElem hp]
      · rw [List.getElem?_append_right (by omega), List.getElem?_drop]
        congr 1
        omega
    by_cases hall : c = mausBytes maus
    · exact .inl (by rw [hall])
    · right
      rcases C92_part_is_unreadable cliStyle _ maus.isPython_dump c hprefix hall with h | ⟨t, h1, h2, _⟩
      · exact ⟨_, by simp only [mausOfBytes, h]; rfl⟩
      · exact ⟨.valueError, by simp only [mausOfBytes, h1, h2, bind, Except.bind]⟩

/-- **C121** the claim "afterwards the file contains the MAUS of one of the runs" is false: two runs that have written everything, and the file
contains a MAUS that none of them has written -/
theorem C121_mixture : ∃ (a b wrong : DeepAhb) (ops : List WritersOp), a.Constructed ∧ b.Constructed ∧
    ((WritersState.start none).run (fun i => mausBytes (if i = 0 then a else b)) ops).Finished (fun i => mausBytes (if i = 0 then a else b)) ∧
    mausOfBytes ((WritersState.start none).run (fun i => mausBytes (if i = 0 then a else b)) ops).content = .ok (some wrong) ∧
    wrong ≠ a ∧ wrong ≠ b ∧ wrong ≠ a.resetAhbLineIndex ∧ wrong ≠ b.resetAhbLineIndex := by
  refine ⟨exOldMaus, exNewMaus, exMixedMaus, [.openFile 1, .write 1 60, .openFile 0, .write 0 1000, .write 1 1000],
    (noLines_constructed rfl rfl).1, (noLines_constructed rfl rfl).1, ⟨⟨0, by decide +kernel⟩, ?_⟩, ?_, ?_, ?_, ?_, ?_⟩
  · intro i pos hi
    match i with
    | 0 =>
      have h : ((WritersState.start none).run (fun i => mausBytes (if i = 0 then exOldMaus else exNewMaus))
        [.openFile 1, .write 1 60, .openFile 0, .write 0 1000, .write 1 1000]).written 0 = some (mausBytes exOldMaus).length := by
        decide +kernel
      rw [h] at hi
      cases hi
      rfl
    | 1 =>
      have h : ((WritersState.start none).run (fun i => mausBytes (if i = 0 then exOldMaus else exNewMaus))
        [.openFile 1, .write 1 60, .openFile 0, .write 0 1000, .write 1 1000]).written 1 = some (mausBytes exNewMaus).length := by
        decide +kernel
      rw [h] at hi
      cases hi
      rfl
    | i + 2 => cases hi
  · have hbytes : ((WritersState.start none).run (fun i => mausBytes (if i = 0 then exOldMaus else exNewMaus))
        [.openFile 1, .write 1 60, .openFile 0, .write 0 1000, .write 1 1000]).content = some (mausBytes exMixedMaus) := by
      decide +kernel
    obtain ⟨hc, hco⟩ := noLines_constructed (a := exMixedMaus) rfl rfl
    have h := (C66_deep_text_round_trip_exact cliStyle exMixedMaus hc).1 hco
    rw [hbytes]
    simp only [mausOfBytes, mausBytes, decodeUtf8_jsonDumps, bind, Except.bind] at *
    rw [h]
    rfl
  all_goals
    intro h
    have h := congrArg (fun a : DeepAhb => (a.ahbMeta.pruefidentifikator, a.ahbMeta.description)) h
    revert h
    decide +kernel

/-- the premises of `C121_bytes` and `C121_killed_partial`: two runs write the same MAUS, one after 60 bytes of the other; then both are
killed, and the file begins with zeros -/
example : ((WritersState.start (some [1, 2, 3])).run (fun _ => mausBytes exOldMaus) [.openFile 0, .write 0 60, .openFile 1, .write 0 5]).content =
    some (List.replicate 60 0 ++ ((mausBytes exOldMaus).drop 60).take 5) := by decide +kernel

/-- the premises of `C121_same_partial` -/
example : ((WritersState.start (some [1, 2, 3])).run (fun _ => mausBytes exOldMaus)
    [.openFile 0, .write 0 60, .openFile 1, .write 0 1000, .write 1 1000]).Finished (fun _ => mausBytes exOldMaus) := by
  refine ⟨⟨0, by decide +kernel⟩, ?_⟩
  intro i pos hi
  match i with
  | 0 =>
    have h : ((WritersState.start (some [1, 2, 3])).run (fun _ => mausBytes exOldMaus)
      [.openFile 0, .write 0 60, .openFile 1, .write 0 1000, .write 1 1000]).written 0 = some (mausBytes exOldMaus).length := by
      decide +kernel
    rw [h] at hi
    cases hi
    rfl
  | 1 =>
    have h : ((WritersState.start (some [1, 2, 3])).run (fun _ => mausBytes exOldMaus)
      [.openFile 0, .write 0 60, .openFile 1, .write 0 1000, .write 1 1000]).written 1 = some (mausBytes exOldMaus).length := by
      decide +kernel
    rw [h] at hi
    cases hi
    rfl
  | i + 2 => cases hi

end Verif
