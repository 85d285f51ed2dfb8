import Verif.Proofs.JsonGrammar
import Verif.Proofs.FileText
import Verif.Proofs.JsonDump
/-! lemmas about texts that were written only in part -/

namespace Verif

/-! ## UTF-8 -/

theorem encodeUtf8_eq (s : PyStr) : (encodeUtf8 s).toByteArray = s.utf8Encode := rfl

theorem utf8EncodeChar_append_inj {c d : Char} {a b : Bytes} (h : String.utf8EncodeChar c ++ a = String.utf8EncodeChar d ++ b) :
    c = d ∧ a = b := by
  have h1 := ByteArray.utf8DecodeChar?_utf8EncodeChar_append (b := a.toByteArray) (c := c)
  have h2 := ByteArray.utf8DecodeChar?_utf8EncodeChar_append (b := b.toByteArray) (c := d)
  rw [← List.toByteArray_append] at h1 h2
  rw [h, h2] at h1
  have hcd : c = d := (Option.some.inj h1).symm
  subst hcd
  exact ⟨rfl, List.append_cancel_left h⟩

/-- characters of which the encoding is a first part of an encoded text are a first part of this text -/
theorem encodeUtf8_prefix : ∀ {a text : PyStr} {rest : Bytes}, encodeUtf8 a ++ rest = encodeUtf8 text →
    ∃ rest', a ++ rest' = text ∧ rest = encodeUtf8 rest'
  | [], text, rest, h => ⟨text, rfl, h⟩
  | c :: a, [], rest, h => by
    have : (encodeUtf8 (c :: a) ++ rest).length = 0 := by rw [h]; rfl
    have hc := Char.utf8Size_pos c
    have hl := String.length_utf8EncodeChar c
    simp only [encodeUtf8, List.flatMap_cons, List.length_append] at this
    omega
  | c :: a, d :: text, rest, h => by
    have h : String.utf8EncodeChar c ++ (encodeUtf8 a ++ rest) = String.utf8EncodeChar d ++ encodeUtf8 text := by
      simpa [encodeUtf8] using h
    obtain ⟨rfl, h'⟩ := utf8EncodeChar_append_inj h
    obtain ⟨rest', h1, h2⟩ := encodeUtf8_prefix h'
    exact ⟨rest', by rw [← h1]; rfl, h2⟩

theorem length_le_encodeUtf8 : ∀ s : PyStr, s.length ≤ (encodeUtf8 s).length
  | [] => Nat.le_refl _
  | c :: s => by
    have h := length_le_encodeUtf8 s
    have hc := c.utf8Size_pos
    have he : (encodeUtf8 (c :: s)).length = c.utf8Size + (encodeUtf8 s).length := by simp [encodeUtf8]
    rw [he, List.length_cons]
    omega

theorem utf8Decode?_some {b : Bytes} {a : Array Char} (h : b.toByteArray.utf8Decode? = some a) : b = encodeUtf8 a.toList := by
  have hs : b.toByteArray.utf8Decode?.isSome := by rw [h]; rfl
  have := ByteArray.utf8Encode_get_utf8Decode? (b := b.toByteArray) (h := hs)
  simp only [h, Option.get_some] at this
  rw [← encodeUtf8_eq] at this
  exact (List.toByteArray_inj.1 this).symm

/-- if a first part of an encoded text without `\r` can be decoded, then the result is a first part of the text -/
theorem decodeUtf8_prefix {text : PyStr} (hcr : '\r' ∉ text) {part : Bytes} (hp : part <+: encodeUtf8 text) {t : PyStr}
    (h : decodeUtf8 part = .ok t) : ∃ rest, t ++ rest = text ∧ (rest = [] → part = encodeUtf8 text) := by
  unfold decodeUtf8 at h
  split at h
  · cases h
  · rename_i a ha
    cases h
    have hb := utf8Decode?_some ha
    obtain ⟨rest, hr⟩ := hp
    rw [hb] at hr
    obtain ⟨rest', h1, h2⟩ := encodeUtf8_prefix hr
    have hcr' : '\r' ∉ a.toList := fun hc => hcr (by rw [← h1]; exact List.mem_append_left _ hc)
    rw [universalNewlines_self hcr']
    refine ⟨rest', h1, fun he => ?_⟩
    rw [hb, ← h1, he, List.append_nil]

/-! ## JSON -/

/-- an object ends where it ends, whatever follows -/
theorem accepts_object {t s : PyStr} {j : Json} (h : JsonValue t j) (hs : t = '{' :: s) :
    ∃ n, ∀ fuel, n ≤ fuel → ∀ rest, parseJsonValue fuel (t ++ rest) = .ok (j, rest) := by
  cases h with
  | null => cases hs
  | true => cases hs
  | false => cases hs
  | integer h =>
    obtain ⟨c, t, e, hc⟩ := jsonDigits_head h
    rw [e] at hs
    cases hs
    cases hc
  | negative h => cases hs
  | float h hv =>
    obtain ⟨c, t, e, hc⟩ := numberText_head (.decimal h hv)
    rw [e] at hs
    cases hs
    cases hc
  | negativeFloat h hv => cases hs
  | nan => cases hs
  | infinity => cases hs
  | negativeInfinity => cases hs
  | string h =>
    obtain ⟨k, rfl, hk⟩ := parseJsonString_complete h
    cases hs
  | emptyArray hw => cases hs
  | array hi => cases hs
  | emptyObject hw =>
    refine ⟨1, fun fuel hf rest => ?_⟩
    obtain ⟨f, rfl⟩ : ∃ f, fuel = f + 1 := ⟨fuel - 1, by omega⟩
    rw [List.cons_append, parseJsonValue, List.append_assoc, skip_blank hw, List.singleton_append, skip_cons (by decide)]
    rfl
  | object hm hd =>
    obtain ⟨s, _, hs, n, hn⟩ := acceptsMembers hm
    refine ⟨n + 1, fun fuel hf rest => ?_⟩
    obtain ⟨f, rfl⟩ : ∃ f, fuel = f + 1 := ⟨fuel - 1, by omega⟩
    rw [List.cons_append, parseJsonValue, List.append_assoc, List.singleton_append, hs]
    change (parseJsonMembers f _).map _ = _
    rw [hn f (by omega) rest, (dictOfMembers_iff _ _).1 hd]
    rfl

theorem document_object {s : PyStr} {j : Json} (h : JsonDocument ('{' :: s) j) :
    ∃ t w, '{' :: s = t ++ w ∧ JsonValue t j ∧ JsonBlank w ∧ ∃ u, t = '{' :: u := by
  obtain ⟨w, t, w', he, hw, hv, hw'⟩ := h
  cases w with
  | cons c w =>
    injection he with h1 h2
    subst h1
    exact absurd (hw '{' (by simp)) (by decide)
  | nil =>
    obtain ⟨c, u, rfl, _⟩ := jsonValue_head hv
    injection he with h1 h2
    subst h1
    exact ⟨_, w', by rw [h2]; rfl, hv, hw', u, rfl⟩

/-- no part of the text of a JSON object is a JSON document, unless it is all of it -/
theorem document_prefix {text part rest : PyStr} {j j' : Json} (h : JsonDocument text j) (hh : text.head? = some '{')
    (hl : text.getLast? = some '}') (ht : part ++ rest = text) (hp : JsonDocument part j') : rest = [] := by
  cases text with
  | nil => cases hh
  | cons c s =>
    cases hh
    cases part with
    | nil =>
      obtain ⟨w, t, w', he, _, hv, _⟩ := hp
      obtain ⟨c, u, rfl, _⟩ := jsonValue_head hv
      cases w <;> cases he
    | cons c part =>
      injection ht with h1 h2
      subst h1
      have h2 : part ++ rest = s := h2
      obtain ⟨t, w, he, hv, hw, u, hu⟩ := document_object h
      obtain ⟨t', w', he', hv', hw', u', hu'⟩ := document_object hp
      obtain ⟨n, hn⟩ := accepts_object hv hu
      obtain ⟨n', hn'⟩ := accepts_object hv' hu'
      have h3 := hn (n + n') (by omega) w
      have h4 := hn' (n + n') (by omega) (w' ++ rest)
      rw [← List.append_assoc, ← he', List.cons_append, h2, he, h3] at h4
      injection h4 with h4
      injection h4 with _ h4
      subst h4
      cases hr : rest.getLast? with
      | none => exact List.getLast?_eq_none_iff.1 hr
      | some d =>
        have hd : d = '}' := by
          have : ('{' :: s).getLast? = some d := by
            rw [← h2, ← List.cons_append, List.getLast?_append, hr]; rfl
          rw [this] at hl
          exact Option.some.inj hl
        subst hd
        have hm := List.mem_of_getLast? hr
        exact absurd (hw '}' (List.mem_append_right _ hm)) (by decide)

theorem render_object_ends (st : JsonStyle) (level : Nat) (d : List (PyStr × Json)) :
    (st.render level (.obj d)).head? = some '{' ∧ (st.render level (.obj d)).getLast? = some '}' := by
  cases d with
  | nil => simp only [JsonStyle.render]; exact ⟨rfl, rfl⟩
  | cons m d =>
    obtain ⟨k, v⟩ := m
    simp only [JsonStyle.render]
    refine ⟨rfl, ?_⟩
    rw [List.getLast?_eq_some_iff]
    simp only [← List.append_assoc, ← List.cons_append]
    exact ⟨_, rfl⟩

/-- whatever part of the bytes of a dumped object is found: it can be decoded and parsed only if it is all of it -/
theorem jsonLoads_part {st : JsonStyle} {d : List (PyStr × Json)} (hd : (Json.obj d).IsPython) {part : Bytes}
    (hp : part <+: encodeUtf8 (jsonDumps st (.obj d))) {t : PyStr} {j : Json} (ht : decodeUtf8 part = .ok t) (hj : jsonLoads t = .ok j) :
    part = encodeUtf8 (jsonDumps st (.obj d)) := by
  obtain ⟨rest, h1, h2⟩ := decodeUtf8_prefix (cr_render st 0 _) hp ht
  refine h2 ?_
  obtain ⟨j', h3, _⟩ := loads_dumps st _ hd
  have hends : (jsonDumps st (.obj d)).head? = some '{' ∧ (jsonDumps st (.obj d)).getLast? = some '}' := by
    unfold jsonDumps
    cases st.sortKeys
    · exact render_object_ends st 0 d
    · exact render_object_ends st 0 _
  exact document_prefix (jsonLoads_sound h3) hends.1 hends.2 h1 (jsonLoads_sound hj)

end Verif
