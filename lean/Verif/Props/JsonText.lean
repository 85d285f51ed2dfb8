import Verif.Proofs.JsonDump
import Verif.Proofs.JsonFuel
import Verif.Props.Schema
/-!
# C66: the JSON texts

`json.dumps` with any of the styles that the code base uses (and any other indentation), followed by `json.loads` and
`Schema.load`.
-/

namespace Verif

/-- **C66** `json.loads(json.dumps(x, …))` is equal to `x`, whatever the indentation, with and without `ensure_ascii` and
`sort_keys`. -/
theorem C66_loads_dumps (st : JsonStyle) (j : Json) (h : j.IsPython) : ∃ j', jsonLoads (jsonDumps st j) = .ok j' ∧ j.Same j' := by
  obtain ⟨j', h1, h2, _⟩ := loads_dumps st j h
  exact ⟨j', h1, h2⟩

/-- **C66** without `sort_keys`, not even the order of the members changes. -/
theorem C66_loads_dumps_unsorted (st : JsonStyle) (hs : st.sortKeys = false) (j : Json) (h : j.IsPython) :
    jsonLoads (jsonDumps st j) = .ok j := by
  unfold jsonDumps
  rw [hs]
  exact jsonLoads_render st j h

/-- **C66** with `sort_keys`, the text depends on nothing but the value: equal values give the same text. -/
theorem C66_sorted_text_is_canonical (st : JsonStyle) (hs : st.sortKeys = true) (j j' : Json) (h : j.IsPython) (he : j.Same j') :
    jsonDumps st j = jsonDumps st j' := by
  unfold jsonDumps
  rw [hs, if_pos rfl, if_pos rfl, sorted_eq_of_same he h]

/-- **C66** a flat AHB that was written in any style is read back unchanged. -/
theorem C66_flat_text_round_trip (st : JsonStyle) (f : FlatAhb) (h : f.Constructed) :
    (jsonLoads (jsonDumps st f.dump)).bind FlatAhb.load = .ok f := by
  rw [load_text FlatAhb.load_orderFree st _ f.isPython_dump]
  exact C38_flat_round_trip f h

/-- **C66** a segment group hierarchy that was written in any style is read back unchanged. -/
theorem C66_sgh_text_round_trip (st : JsonStyle) (s : Sgh) : (jsonLoads (jsonDumps st s.dump)).bind Sgh.load = .ok s := by
  rw [load_text Sgh.load_orderFree st _ s.isPython_dump]
  exact C40_sgh_round_trip s

/-- **C66** a deep AHB that was written in any style is read back without its line indices if it is complete (all section names,
discriminators and value types are there), and is not readable otherwise. -/
theorem C66_deep_text_round_trip_exact (st : JsonStyle) (a : DeepAhb) (h : a.Constructed) :
    (a.Complete → (jsonLoads (jsonDumps st a.dump)).bind DeepAhb.load = .ok a.resetAhbLineIndex) ∧
    (¬ a.Complete → (jsonLoads (jsonDumps st a.dump)).bind DeepAhb.load = .error .validationError) := by
  rw [load_text DeepAhb.load_orderFree st _ a.isPython_dump]
  exact C39_deep_round_trip_exact a h

/-- **C66** what is read does not depend on how the file was formatted: all styles are read alike, by all three schemas, also if
the content is no dump of a value. -/
theorem C66_style_irrelevant (st st' : JsonStyle) (j : Json) (h : j.IsPython) :
    (jsonLoads (jsonDumps st j)).bind FlatAhb.load = (jsonLoads (jsonDumps st' j)).bind FlatAhb.load ∧
    (jsonLoads (jsonDumps st j)).bind DeepAhb.load = (jsonLoads (jsonDumps st' j)).bind DeepAhb.load ∧
    (jsonLoads (jsonDumps st j)).bind Sgh.load = (jsonLoads (jsonDumps st' j)).bind Sgh.load := by
  simp only [load_text FlatAhb.load_orderFree _ j h, load_text DeepAhb.load_orderFree _ j h, load_text Sgh.load_orderFree _ j h,
    and_self]

/-- about the model: the bound on the nesting in `jsonLoads` is no restriction, a greater bound gives the same result. -/
theorem C66_no_nesting_limit (s : PyStr) (more : Nat) :
    parseJsonValue (2 * s.length + 2 + more) (skipJsonSpace s) = parseJsonValue (2 * s.length + 2) (skipJsonSpace s) := by
  have h := skip_length s
  rw [((fuelOk _).value _ rfl (2 * s.length + 2 + more) (by omega)).1, ((fuelOk _).value _ rfl (2 * s.length + 2) (by omega)).1]

/-- the style of `main` and of the readers' `to_..._json` -/
def exCliStyle : JsonStyle := { indent := some 2, ensureAscii := false, sortKeys := true }
/-- the default style -/
def exDefaultStyle : JsonStyle := { indent := none, ensureAscii := true, sortKeys := false }

/-- a value with nested dictionaries, escapes and a character outside the basic multilingual plane -/
def exJson : Json :=
  .obj [(py!"b", .arr [.num (-12), .null, .bool true, .arr [], .obj []]), (py!"a\"\\", .str ['ä', '😀', '\n', Char.ofNat 1, '/'])]

example : jsonDumps exCliStyle exJson = py!"{\n  \"a\\\"\\\\\": \"ä😀\\n\\u0001/\",\n  \"b\": [\n    -12,\n    null,\n    true,\n    [],\n    {}\n  ]\n}" := by
  decide +kernel
example : jsonDumps exDefaultStyle exJson = py!"{\"b\": [-12, null, true, [], {}], \"a\\\"\\\\\": \"\\u00e4\\ud83d\\ude00\\n\\u0001/\"}" := by
  decide +kernel
example : exJson.IsPython ∧ jsonLoads (jsonDumps exDefaultStyle exJson) = .ok exJson := by
  have h : exJson.IsPython := by
    simp only [exJson, Json.IsPython, Json.IsPythonItems, Json.IsPythonMembers, List.map_cons, List.map_nil]
    decide
  exact ⟨h, C66_loads_dumps_unsorted _ rfl _ h⟩
example : (jsonLoads (jsonDumps exCliStyle exFlatSchema.dump)).bind FlatAhb.load = .ok exFlatSchema := by decide +kernel
example : (jsonDumps exCliStyle exSgh.dump).length > 300 ∧
    (jsonLoads (jsonDumps exCliStyle exSgh.dump)).bind Sgh.load = .ok exSgh :=
  ⟨by decide +kernel, C66_sgh_text_round_trip _ _⟩
example : ∃ b, (jsonLoads (jsonDumps exCliStyle exDeepComplete.dump)).bind DeepAhb.load = .ok b ∧ b ≠ exDeepComplete :=
  ⟨exDeepComplete.resetAhbLineIndex, by decide +kernel, by decide +kernel⟩
example : (Json.obj [(py!"b", .null), (py!"a", .num 1)]).Same (.obj [(py!"a", .num 1), (py!"b", .null)]) ∧
    jsonDumps exCliStyle (.obj [(py!"b", .null), (py!"a", .num 1)]) = py!"{\n  \"a\": 1,\n  \"b\": null\n}" :=
  ⟨.obj (sameMembers_refl _) (List.Perm.swap _ _ _), by decide +kernel⟩
/-- texts that are not JSON -/
example : jsonLoads py!"{\"a\": 1,}" = .error .valueError ∧ jsonLoads py!"[01]" = .error .valueError ∧
    jsonLoads py!"[1] x" = .error .valueError ∧ jsonLoads [] = .error .valueError := ⟨rfl, rfl, rfl, rfl⟩

end Verif
