import Verif.Proofs.LocationRepr
import Verif.Props.Placement
/-!
# C103: the printed location of an unknown segment identifies its location
-/

namespace Verif

/-- **C103 (identification)** two locations that are printed alike are equal, whatever texts they contain and whichever characters count as printable. -/
theorem C103_identifies (printable : Char → Bool) {a b : AhbLocation} (h : a.str printable = b.str printable) : a = b :=
  location_str_inj printable h

/-- **C103 (no mix-up)** a printed location is never the JSON path to an element of a template. -/
theorem C103_no_path (printable : Char → Bool) (loc : AhbLocation) (root : Xml) : ¬ ∃ path es, LeadsTo root (loc.str printable) path es := by
  rintro ⟨path, es, _, _, _, _, he⟩
  have := location_str_head printable loc
  rw [he] at this
  rcases this with h | h <;> cases h

/-- **C103 (segments)** in the result of `to_deep_ahb`, the discriminator of a segment is either the JSON path to a class of the template or the
printed location of a line that is not found in the template; never both, and in the second case the location can be told from it. -/
theorem C103_segments {root : Xml} {printable : Char → Bool} {flat flat' : FlatAhb} {sgh : Sgh} {deep : DeepAhb}
    (h : toDeepAhb (migLookup root) (AhbLocation.str printable) flat sgh = .ok (flat', deep)) {s : Segment} (hs : SegmentOccurs deep.lines s) :
    ∃ d, s.discriminator = some d ∧
      (((∃ path es, LeadsTo root d path es) ∧ ∀ loc : AhbLocation, loc.str printable ≠ d) ∨
       (¬ (∃ path es, LeadsTo root d path es) ∧ ∃ line loc, line.dataElement = none ∧ LocatedAt sgh flat line loc ∧ NotInTemplate root loc ∧
          ∀ loc' : AhbLocation, loc'.str printable = d ↔ loc' = loc)) := by
  obtain ⟨d, hd, h1⟩ := C101_segments h hs
  refine ⟨d, hd, ?_⟩
  rcases h1 with ⟨path, document, classes, hl, _⟩ | ⟨line, loc, h2, rfl, h3, h4⟩
  · refine .inl ⟨⟨path, _, hl⟩, fun loc he => ?_⟩
    subst he
    exact C103_no_path printable loc root ⟨_, _, hl⟩
  · exact .inr ⟨C103_no_path printable loc root, line, loc, h2, h3, h4, fun loc' => ⟨fun he => C103_identifies printable he, fun he => he ▸ rfl⟩⟩

/-- **C103 (nesting)** with printed locations, the discriminators show the nesting as in C102. -/
theorem C103_nesting {root document : Xml} {m : Nat} (hm : OnlyChild (IsClass py!"/") root m) (hc : root.children[m]? = some document)
    {printable : Char → Bool} {flat flat' : FlatAhb} {sgh : Sgh} {deep : DeepAhb}
    (h : toDeepAhb (migLookup root) (AhbLocation.str printable) flat sgh = .ok (flat', deep))
    (hstay : ∀ located, determineLocations sgh flat.lines = .ok located →
      StaysInGroup (migLookup root) (AhbLocation.str printable) (runsOf located)) : ShowsNesting root deep.lines :=
  C102_partial hm hc (fun loc he => by
    rcases location_str_head printable loc with h1 | h1 <;> rw [h1] at he <;> cases he) h hstay

/-! ## examples -/

/-- a location as attrs prints it -/
example : AhbLocation.str (fun _ => true)
      { layers := [⟨none, py!"UNH", none⟩, ⟨some py!"SG4", py!"IDE", some py!"24"⟩], segmentCode := some py!"IDE", qualifier := some py!"it's" } =
    py!"AhbLocation(layers=[AhbLocationLayer(segment_group_key=None, opening_segment_code='UNH', opening_qualifier=None), AhbLocationLayer(segment_group_key='SG4', opening_segment_code='IDE', opening_qualifier='24')], segment_code='IDE', data_element_id=None, qualifier=\"it's\")" := by
  decide +kernel

/-- escapes in printed strings: quotes, backslash, control characters, characters that are not printable -/
example : reprStr (fun c => c.toNat ≠ 0xad ∧ c.toNat ≠ 0x2028 ∧ c.toNat ≠ 0xe0001) ("a'b\"\\\n\x01\x7fä".toList ++ [Char.ofNat 0xad, Char.ofNat 0x2028, Char.ofNat 0xe0001]) =
    "'a\\'b\"\\\\\\n\\x01\\x7fä\\xad\\u2028\\U000e0001'".toList := by decide +kernel

/-- the example AHB has a segment that the template does not know -/
example : (toDeepAhb (migLookup exTemplate) (AhbLocation.str fun _ => true) exFlat exSgh).map (fun r =>
      (documentOrder r.2.lines).filterMap fun
        | .segment (some d) _ _ _ _ => if d.head? = some '$' then none else some d
        | _ => none) =
    .ok [py!"AhbLocation(layers=[AhbLocationLayer(segment_group_key=None, opening_segment_code='UNH', opening_qualifier='MS'), AhbLocationLayer(segment_group_key='SG4', opening_segment_code='IDE', opening_qualifier='24')], segment_code='IDE', data_element_id=None, qualifier=None)"] := by
  decide +kernel

/-- the hypotheses of the nesting theorem are met by the shortened example -/
example : ((toDeepAhb (migLookup exTemplate) (AhbLocation.str fun _ => true) exFlatStays exSgh).map fun r => groupAddresses r.2.lines) =
      .ok [[0], [0, 0], [0, 1]] ∧
    ∀ located, determineLocations exSgh exFlatStays.lines = .ok located →
      StaysInGroup (migLookup exTemplate) (AhbLocation.str fun _ => true) (runsOf located) := by
  refine ⟨by decide +kernel, fun located hl => stays_of_staysB ?_⟩
  have hmap : (determineLocations exSgh exFlatStays.lines).map (fun located =>
      staysB (migLookup exTemplate) (AhbLocation.str fun _ => true) (runsOf located)) = .ok true := by decide +kernel
  rw [hl] at hmap
  exact Except.ok.inj hmap

end Verif
