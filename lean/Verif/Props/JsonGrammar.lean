import Verif.Proofs.JsonGrammar
import Verif.Props.JsonText
import Verif.Props.SchemaLoad
import Mathlib.Tactic.Linarith
import Mathlib.Tactic.NormNum
/-!
# C85: exactly the JSON documents are read
-/

namespace Verif

/-- **C85** `json.loads` returns a value iff the text is a JSON document that denotes it, by the grammar of RFC 8259, with the constants
`NaN`, `Infinity` and `-Infinity` in addition. A number with a fraction or an exponent denotes the nearest double (lone surrogates,
which Python accepts too, are outside the model). -/
theorem C85_documents (text : PyStr) (j : Json) : jsonLoads text = .ok j ↔ JsonDocument text j :=
  ⟨jsonLoads_sound, jsonLoads_complete⟩

/-- **C85** a text denotes at most one value. -/
theorem C85_unambiguous {text : PyStr} {j j' : Json} (h : JsonDocument text j) (h' : JsonDocument text j') : j = j' := by
  have := (C85_documents _ _).2 h
  rw [(C85_documents _ _).2 h'] at this
  exact (Except.ok.inj this).symm

/-- **C85** every dump is a JSON document of an equal value. -/
theorem C85_dumps (st : JsonStyle) (j : Json) (h : j.IsPython) : ∃ j', JsonDocument (jsonDumps st j) j' ∧ j.Same j' := by
  obtain ⟨j', h1, h2⟩ := C66_loads_dumps st j h
  exact ⟨j', (C85_documents _ _).1 h1, h2⟩

theorem loads_bind_iff {α : Type} {load : Json → PyRes α} {D : Json → α → Prop} (h : ∀ j a, load j = .ok a ↔ D j a)
    (text : PyStr) (a : α) : (jsonLoads text).bind load = .ok a ↔ ∃ j, JsonDocument text j ∧ D j a := by
  constructor
  · intro he
    cases hj : jsonLoads text with
    | error e => rw [hj] at he; cases he
    | ok j => rw [hj] at he; exact ⟨j, (C85_documents _ _).1 hj, (h j a).1 he⟩
  · rintro ⟨j, hj, hd⟩
    rw [(C85_documents _ _).2 hj]
    exact (h j a).2 hd

/-- **C85** a text is read as a flat AHB iff it is a JSON document that describes the flat AHB. -/
theorem C85_flat_texts (text : PyStr) (f : FlatAhb) :
    (jsonLoads text).bind FlatAhb.load = .ok f ↔ ∃ j, JsonDocument text j ∧ DescribesFlat j f :=
  loads_bind_iff C82_flat_ahb text f

/-- **C85** a text is read as a deep AHB iff it is a JSON document that describes the deep AHB. -/
theorem C85_deep_texts (text : PyStr) (a : DeepAhb) :
    (jsonLoads text).bind DeepAhb.load = .ok a ↔ ∃ j, JsonDocument text j ∧ DescribesDeep j a :=
  loads_bind_iff C82_deep_ahb text a

/-- **C85** a text is read as a segment group hierarchy iff it is a JSON document that describes the hierarchy. -/
theorem C85_hierarchy_texts (text : PyStr) (s : Sgh) :
    (jsonLoads text).bind Sgh.load = .ok s ↔ ∃ j, JsonDocument text j ∧ DescribesHierarchy j s :=
  loads_bind_iff C82_hierarchy text s

/-- a text that no dump produces: white space at every place where it is allowed, escapes that the writer never uses, a key twice -/
def exForeignJson : PyStr :=
  py!"\r\n{ \"a\" :\t[ 1 , -0, 10\n] , \"\\u00E4\\/\\uD83D\\uDE00\" : \"\\b\", \"a\":{ } }\t"

example : JsonDocument exForeignJson (.obj [(py!"a", .obj []), (['ä', '/', '😀'], .str [Char.ofNat 8])]) :=
  (C85_documents _ _).1 rfl
/-- a derivation by hand -/
example : JsonDocument py!" [1 ,\"\\n\"]" (.arr [.num 1, .str py!"\n"]) :=
  ⟨py!" ", py!"[1 ,\"\\n\"]", [], rfl, by simp [JsonBlank],
    .array (t := py!"1 ,\"\\n\"")
      (.cons (w := []) (t := ['1']) (w' := [' ']) (t' := py!"\"\\n\"") (by simp [JsonBlank])
        (.integer (ds := ['1']) (.inr ⟨'1', [], rfl, by decide, by simp⟩)) (by simp [JsonBlank])
        (.last (w := []) (t := py!"\"\\n\"") (w' := []) (by simp [JsonBlank])
          (.string (.mk (body := py!"\\n") (.escape .lineFeed .nil) (.single (c := '\n') .nil))) (by simp [JsonBlank]))),
    by simp [JsonBlank]⟩
theorem float_document {text : PyStr} {f : PyFloat}
    (h : (match jsonLoads text with | .ok (.float f) => some f | _ => none) = some f) : JsonDocument text (.float f) := by
  refine (C85_documents _ _).1 ?_
  split at h
  · rename_i he; cases h; exact he
  · cases h

/-- numbers: a fraction, an exponent, a tie between two doubles, too great and too small numbers, the constants -/
example : ∀ p ∈ [(py!"0.1", .finite false 0x1999999999999a (-56)), (py!"-12.25e-1", .finite true 0x1399999999999a (-52)),
    (py!"1E+2", .finite false 0x19000000000000 (-46)), (py!"9007199254740993.0", .finite false 0x10000000000000 1),
    (py!"1e400", .inf false), (py!"-1e-400", .finite true 0 (-1074)), (py!"5e-324", .finite false 1 (-1074)), (py!"NaN", .nan),
    (py!"Infinity", .inf false), (py!"-Infinity", .inf true)], JsonDocument p.1 (.float p.2) := by
  have : ∀ p ∈ [(py!"0.1", PyFloat.finite false 0x1999999999999a (-56)), (py!"-12.25e-1", .finite true 0x1399999999999a (-52)),
      (py!"1E+2", .finite false 0x19000000000000 (-46)), (py!"9007199254740993.0", .finite false 0x10000000000000 1),
      (py!"1e400", .inf false), (py!"-1e-400", .finite true 0 (-1074)), (py!"5e-324", .finite false 1 (-1074)), (py!"NaN", .nan),
      (py!"Infinity", .inf false), (py!"-Infinity", .inf true)],
      (match jsonLoads p.1 with | .ok (.float f) => some f | _ => none) = some p.2 := by decide +kernel
  exact fun p hp => float_document (this p hp)
/-- a derivation by hand: `2.5` is the double `5 * 2^50 * 2^(-51)` -/
example : JsonValue py!"2.5" (.float (.finite false (5 * 2 ^ 50) (-51))) := by
  have hd : JsonDecimal py!"2.5" (decimalValue py!"25" * 10 ^ ((0 : Int) - (1 : Nat))) :=
    .mk (ds := ['2']) (f := py!".5") (fs := ['5']) (x := []) (.inr ⟨'2', [], rfl, by decide, by simp⟩)
      (.digits ⟨by simp, by simp⟩) .missing (by simp)
  have hq : ((decimalValue py!"25" : Nat) : ℚ) * 10 ^ ((0 : Int) - (1 : Nat)) = (5 * 2 ^ 50 : Nat) * 2 ^ (-51 : Int) := by
    rw [show decimalValue py!"25" = 25 from rfl]; norm_num
  rw [hq] at hd
  refine .float hd (.finite ?_ ⟨⟨by decide, by decide, by decide⟩, .inl (by decide), fun m' e' _ => ?_, fun m' e' _ h => .inl ?_⟩)
  · have : (1 : ℚ) ≤ 2 ^ 971 := one_le_pow₀ (by norm_num)
    generalize (2 : ℚ) ^ 971 = y at this ⊢
    norm_num
    linarith
  · rw [sub_self, abs_zero]; exact abs_nonneg _
  · rw [sub_self, abs_zero] at h; linarith [abs_eq_zero.1 h.symm]
/-- texts that are no JSON documents: a comma too much, leading zeros, a second value, a control character in a string, an unknown
escape, other white space, a sign `+`, single quotes, a byte order mark, a point or an exponent without digits, a second sign -/
example : ∀ text ∈ [py!"[1,]", py!"[01]", py!"1 2", py!"\"\n\"", py!"\"\\x\"", ['1', Char.ofNat 160], py!"+1", py!"'a'",
    ['\uFEFF', '1'], py!"1.", py!".5", py!"1e", py!"1.e5", py!"--1", py!"-NaN"], ∀ j, ¬ JsonDocument text j := by
  intro text ht j h
  rw [← C85_documents] at h
  revert h
  have : ∀ text ∈ [py!"[1,]", py!"[01]", py!"1 2", py!"\"\n\"", py!"\"\\x\"", ['1', Char.ofNat 160], py!"+1", py!"'a'",
      ['\uFEFF', '1'], py!"1.", py!".5", py!"1e", py!"1.e5", py!"--1", py!"-NaN"], ∃ e, jsonLoads text = .error e := by
    intro text ht
    simp only [List.mem_cons, List.not_mem_nil, or_false] at ht
    rcases ht with rfl | rfl | rfl | rfl | rfl | rfl | rfl | rfl | rfl | rfl | rfl | rfl | rfl | rfl | rfl <;> exact ⟨_, rfl⟩
  obtain ⟨e, he⟩ := this text ht
  rw [he]
  intro h
  cases h

end Verif
