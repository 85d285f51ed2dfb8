import Verif.Proofs.LocationXml
/-!
# Property C41: the XML form of locations
-/

namespace Verif

/-- **C41 (exact)** writing a location succeeds; reading it again fails with an `AttributeError` if the location has exactly
one layer, and otherwise gives the location back with surrounding whitespace of the qualifier removed and blank (opening)
qualifiers replaced by `None`. -/
theorem C41_location_round_trip_exact (l : AhbLocation) (h : l.Constructed) (hx : l.XmlText) :
    ∃ x, toXmlElement l = .ok x ∧
      fromXmlElement x = if l.layers.length = 1 then .error .attributeError else .ok l.trimmed := by
  have hg := goodLocation h hx
  obtain ⟨a, t, c, h1, h2⟩ := toXmlElement_ok hg
  refine ⟨_, h1, ?_⟩
  have : (XVal.dict (xmlParse (.elem py!"ahbLocation" a t c))).subscript py!"ahbLocation" = .ok (locationVal l) := by
    rw [← h2]; rfl
  unfold fromXmlElement
  rw [this, ← location_round_trip hg]
  rfl

/-- **C41 (exact, lists)** the same for lists: reading fails with a `TypeError` for the empty list and with an
`AttributeError` if one of the locations has exactly one layer. -/
theorem C41_locations_round_trip_exact (ls : List AhbLocation) (h : ∀ l ∈ ls, l.Constructed ∧ l.XmlText) :
    ∃ x, toXmlElements ls = .ok x ∧
      fromXmlElements x = if ls = [] then .error .typeError
        else if ∃ l ∈ ls, l.layers.length = 1 then .error .attributeError else .ok (ls.map AhbLocation.trimmed) := by
  have hg : ∀ l ∈ ls, GoodLocation l := fun l hl => goodLocation (h l hl).1 (h l hl).2
  obtain ⟨xs, h1, h2, h3⟩ := locationsToXml_ok hg
  refine ⟨_, by simp only [toXmlElements, h1, Bind.bind, Except.bind, pure, Except.pure]; rfl, ?_⟩
  have hd : ∀ x ∈ xs, IsDict x.toValue := by
    intro x hx
    have : x.toValue ∈ ls.map locationVal := by rw [← h3]; exact List.mem_map_of_mem hx
    obtain ⟨y, _, hy⟩ := List.mem_map.1 this
    exact ⟨_, hy.symm⟩
  have hv : (XVal.dict (xmlParse (.elem py!"ahbLocations" [] none xs))).subscript py!"ahbLocations" =
      .ok (elementValue (Xml.pushChildren none xs) none) := by
    show Except.ok (Xml.toValue (.elem py!"ahbLocations" [] none xs)) = _
    rw [Xml.toValue]; rfl
  unfold fromXmlElements
  rw [hv, pushChildren_none _ xs h2 hd, h3]
  match ls with
  | [] => rfl
  | [l] =>
    rw [if_neg (by simp)]
    have := location_round_trip (hg l (by simp))
    simp only [List.mem_singleton, exists_eq_left]
    obtain ⟨d, hd⟩ := locationVal_dict l
    simp only [List.map_cons, List.map_nil, collected]
    rw [hd] at this ⊢
    simp only [elementValue, Bind.bind, Except.bind, XVal.subscript, dictGet, if_pos, this]
    by_cases h1 : l.layers.length = 1
    · simp only [h1, if_true]
    · simp only [h1, if_false]; rfl
  | l :: l' :: ls =>
    rw [if_neg (by simp)]
    simp only [List.map_cons, collected, elementValue, Bind.bind, Except.bind, XVal.subscript, dictGet, if_pos]
    exact locationsFromValues_ok hg

/-- no text of the location is changed by trimming -/
def AhbLocation.TextsTrimmed (l : AhbLocation) : Prop :=
  (∀ q, l.qualifier = some q → Trimmed q) ∧ ∀ x ∈ l.layers, x.openingQualifier ≠ some []

theorem trimmed_of_texts {l : AhbLocation} (h : l.Constructed) (ht : l.TextsTrimmed) : l.trimmed = l := by
  have h1 : trimText l.qualifier = l.qualifier := by
    cases hq : l.qualifier with
    | none => rfl
    | some q => simp [trimText, (ht.1 q hq).2, (ht.1 q hq).1]
  have h2 : l.layers.map (fun x => { x with openingQualifier := trimText x.openingQualifier }) = l.layers := by
    conv => rhs; rw [← List.map_id l.layers]
    refine List.map_congr_left fun x hx => ?_
    have hg := goodLayer (h.2 x hx)
    have : trimText x.openingQualifier = x.openingQualifier := by
      refine trimText_code fun s hs => ⟨hg.qual s hs, fun h' => ht.2 x hx ?_⟩
      rw [hs, h']
    rw [this]; rfl
  unfold AhbLocation.trimmed
  rw [h1, h2]

/-- **C41 (partial: at least two layers, no blank or padded qualifiers)** reading a written location gives the same
location. The full statement is false, see `C41_round_trip_fails`. -/
theorem C41_location_round_trip_partial (l : AhbLocation) (h : l.Constructed) (hx : l.XmlText)
    (hl : l.layers.length ≠ 1) (ht : l.TextsTrimmed) : (toXmlElement l >>= fromXmlElement) = .ok l := by
  obtain ⟨x, h1, h2⟩ := C41_location_round_trip_exact l h hx
  rw [if_neg hl, trimmed_of_texts h ht] at h2
  rw [h1]; exact h2

/-- **C41 (partial, lists)** the same for non-empty lists. -/
theorem C41_locations_round_trip_partial (ls : List AhbLocation) (hne : ls ≠ [])
    (h : ∀ l ∈ ls, l.Constructed ∧ l.XmlText ∧ l.layers.length ≠ 1 ∧ l.TextsTrimmed) :
    (toXmlElements ls >>= fromXmlElements) = .ok ls := by
  obtain ⟨x, h1, h2⟩ := C41_locations_round_trip_exact ls (fun l hl => ⟨(h l hl).1, (h l hl).2.1⟩)
  rw [if_neg hne, if_neg (by rintro ⟨l, hl, h'⟩; exact (h l hl).2.2.1 h'),
    show ls.map AhbLocation.trimmed = ls from by
      conv => rhs; rw [← List.map_id ls]
      exact List.map_congr_left fun l hl => trimmed_of_texts (h l hl).1 (h l hl).2.2.2] at h2
  rw [h1]; exact h2

/-- the location of "SG4, IDE, 7495" in a UTILMD -/
def exLocXml : AhbLocation :=
  { layers := [⟨none, py!"UNH", none⟩, ⟨some py!"SG4", py!"IDE", some py!"24"⟩], segmentCode := some py!"IDE",
    dataElementId := some py!"7495", qualifier := some py!"24 a" }

instance decConstructedLocation (l : AhbLocation) : Decidable l.Constructed := by unfold AhbLocation.Constructed; infer_instance

example : exLocXml.Constructed ∧ exLocXml.XmlText ∧ exLocXml.layers.length ≠ 1 ∧ exLocXml.TextsTrimmed :=
  ⟨by decide +kernel, fun q hq => (by cases hq; decide), by decide,
    fun q hq => (by cases hq; exact ⟨by decide, by decide⟩), by decide⟩
example : (toXmlElement exLocXml >>= fromXmlElement) = .ok exLocXml := by decide +kernel

/-- **C41 is false in general**: a location in the root group (one layer) cannot be read again. -/
theorem C41_round_trip_fails : ∃ l : AhbLocation, l.Constructed ∧ l.XmlText ∧
    (toXmlElement l >>= fromXmlElement) = .error .attributeError :=
  ⟨{ layers := [⟨none, py!"UNH", none⟩], segmentCode := some py!"BGM" }, by decide +kernel, fun q hq => (by cases hq),
    by decide +kernel⟩

/-- **C41 is false in general**: an empty opening qualifier and a padded qualifier come back changed. -/
theorem C41_texts_change : ∃ l : AhbLocation, l.Constructed ∧ l.XmlText ∧
    ∃ l', (toXmlElement l >>= fromXmlElement) = .ok l' ∧ l'.qualifier ≠ l.qualifier ∧ l'.layers ≠ l.layers :=
  ⟨{ layers := [⟨none, py!"UNH", some []⟩, ⟨some py!"SG4", py!"IDE", none⟩], qualifier := some py!" a" },
    by decide +kernel, fun q hq => (by cases hq; decide),
    { layers := [⟨none, py!"UNH", none⟩, ⟨some py!"SG4", py!"IDE", none⟩], qualifier := some py!"a" },
    by decide +kernel, by decide, by decide⟩

end Verif
