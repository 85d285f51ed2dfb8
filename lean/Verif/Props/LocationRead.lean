import Verif.Proofs.LocationRead
import Verif.Proofs.Raises
/-!
# C73 reading locations from XML exactly
-/

namespace Verif

mutual
theorem named_of_element : ∀ {s : PyStr} {x : Xml}, XmlElement s x → NamedXml x
  | _, _, .empty hn _ _ _ => .mk hn .nil
  | _, _, .full hn _ _ _ _ hs => .mk hn (named_of_content hs)
theorem named_of_content : ∀ {s d : PyStr} {xs : List Xml}, XmlContent s d xs → NamedXmls xs
  | _, _, _, .nil => .nil
  | _, _, _, .char _ _ _ ht => named_of_content ht
  | _, _, _, .ref _ ht => named_of_content ht
  | _, _, _, .cdata _ _ ht => named_of_content ht
  | _, _, _, .comment _ ht => named_of_content ht
  | _, _, _, .pi _ ht => named_of_content ht
  | _, _, _, .elem hs ht => .cons (named_of_element hs) (named_of_content ht)
end

theorem namedXmls_mem {xs : List Xml} (h : NamedXmls xs) : ∀ c ∈ xs, NamedXml c := by
  induction xs with
  | nil => simp
  | cons x xs ih =>
    cases h with
    | cons h hs =>
      intro c hc
      rcases List.mem_cons.1 hc with rfl | hc
      · exact h
      · exact ih hs c hc

theorem deepKeys_of_named (n : Nat) : ∀ {e : Xml}, NamedXml e → DeepKeys n e := by
  induction n with
  | zero => intro e _; trivial
  | succ n ih =>
    intro e h c hc
    cases h with
    | mk ht hcs =>
      have := namedXmls_mem hcs c hc
      refine ⟨?_, ih this⟩
      cases this with
      | mk ht' _ => exact elementKey_of_name ht'

/-- **C73** `from_xml_element` returns a location for exactly those elements that describe it. -/
theorem C73_element {x : Xml} (h : NamedXml x) (l : AhbLocation) : fromXmlElement x = .ok l ↔ LocationElement x l :=
  locationElement_iff x (deepKeys_of_named 4 h) l

/-- **C73** `from_xml_elements` returns a list of locations for exactly those elements that describe it. -/
theorem C73_elements {x : Xml} (h : NamedXml x) (ls : List AhbLocation) : fromXmlElements x = .ok ls ↔ LocationsElement x ls :=
  locationsElement_iff x (deepKeys_of_named 5 h) ls

/-- **C73** a text gives a location iff it is an XML document whose root element describes the location; the same for lists. -/
theorem C73_text {text s : PyStr} (hs : Normalised text s) (l : AhbLocation) (ls : List AhbLocation) :
    (fromXmlText text = .ok l ↔ ∃ x, XmlDocument s x ∧ LocationElement x l) ∧
    (fromXmlTexts text = .ok ls ↔ ∃ x, XmlDocument s x ∧ LocationsElement x ls) := by
  by_cases h : ∃ x, XmlDocument s x
  · obtain ⟨x, hx⟩ := h
    have hu : ∀ y, XmlDocument s y → y = x := by
      intro y hy
      have h1 := (C71_documents hs x).2 hx
      have h2 := (C71_documents hs y).2 hy
      rw [h1] at h2
      cases h2
      rfl
    have hn : NamedXml x := by
      obtain ⟨_, _, _, _, -, -, -, he, -⟩ := hx
      exact named_of_element he
    obtain ⟨h1, h2⟩ := C71_location_text hs hx
    rw [h1, h2, C73_element hn, C73_elements hn]
    constructor
    · exact ⟨fun h => ⟨x, hx, h⟩, fun ⟨y, hy, h⟩ => by rw [hu y hy] at h; exact h⟩
    · exact ⟨fun h => ⟨x, hx, h⟩, fun ⟨y, hy, h⟩ => by rw [hu y hy] at h; exact h⟩
  · obtain ⟨-, h1, h2⟩ := C71_not_well_formed hs h
    rw [h1, h2]
    constructor
    · constructor
      · intro h'; cases h'
      · rintro ⟨x, hx, -⟩; exact absurd ⟨x, hx⟩ h
    · constructor
      · intro h'; cases h'
      · rintro ⟨x, hx, -⟩; exact absurd ⟨x, hx⟩ h

/-! ## exceptions -/

/-- the exceptions of reading XML locations; `other` is the parser's error -/
def XmlExc (e : Exc) : Prop := e = .keyError ∨ e = .typeError ∨ e = .attributeError ∨ e = .valueError

theorem XmlExc.key : XmlExc .keyError := .inl rfl
theorem XmlExc.typ : XmlExc .typeError := .inr (.inl rfl)
theorem XmlExc.att : XmlExc .attributeError := .inr (.inr (.inl rfl))
theorem XmlExc.vlu : XmlExc .valueError := .inr (.inr (.inr rfl))

theorem raises_xmlSubscript (v : XVal) (k : PyStr) : Raises XmlExc (v.subscript k) := by
  cases v with
  | dict d =>
    rw [XVal.subscript]
    cases dictGet k d with
    | none => exact .error .key
    | some x => exact .ok _
  | _ => exact .error .typ

theorem raises_strArg (d : List (PyStr × XVal)) (k : PyStr) (r : Bool) : Raises XmlExc (strArg d k r) := by
  unfold strArg
  cases dictGet k d with
  | none => exact .ite (.error .typ) (.ok _)
  | some v => cases v <;> first | exact .ok _ | exact .error .typ

theorem raises_matchArg (d : List (PyStr × XVal)) (k : PyStr) (r : Bool) (re : Re) : Raises XmlExc (matchArg d k r re) :=
  .bind (raises_strArg d k r) fun _ => .ite (.ok _) (.error .vlu)

theorem raises_layerNew (a b c : Option PyStr) : Raises XmlExc (AhbLocationLayer.new a b c) := by
  unfold AhbLocationLayer.new
  refine .ite (.error .vlu) ?_
  cases b with
  | none => exact .error .typ
  | some o => exact .ite (.error .vlu) (.ite (.error .vlu) (.ok _))

theorem raises_locationNew (ls : List AhbLocationLayer) (a b c : Option PyStr) : Raises XmlExc (AhbLocation.new ls a b c) := by
  unfold AhbLocation.new
  exact .ite (.error .vlu) (.ite (.error .vlu) (.ite (.error .vlu) (.ok _)))

theorem raises_layerFromDict (d : List (PyStr × XVal)) : Raises XmlExc (layerFromDict d) := by
  unfold layerFromDict
  exact .ite (.error .typ) (.ite (.error .typ) (.bind (raises_matchArg _ _ _ _) fun _ => .bind (raises_matchArg _ _ _ _) fun _ =>
    .bind (raises_strArg _ _ _) fun _ => raises_layerNew _ _ _))

theorem raises_replaceNil (v : XVal) : Raises XmlExc (replaceNil v) := by
  cases v <;> first | exact .ok _ | exact .error .att

theorem raises_layersFromValues (vs : List XVal) : Raises XmlExc (layersFromValues vs) := by
  induction vs with
  | nil => exact .ok _
  | cons v vs ih =>
    rw [layersFromValues]
    exact .bind (raises_replaceNil v) fun _ => .bind (raises_layerFromDict _) fun _ => .bind ih fun _ => .ok _

theorem raises_xmlDictToLocation (v : XVal) : Raises XmlExc (xmlDictToLocation v) := by
  cases v with
  | dict d =>
    rw [xmlDictToLocation_dict]
    refine .bind (raises_xmlSubscript _ _) fun _ => .bind (raises_xmlSubscript _ _) fun ld => .bind ?_ fun _ =>
      .ite (.error .typ) (.bind (raises_matchArg _ _ _ _) fun _ => .bind (raises_matchArg _ _ _ _) fun _ => .bind (raises_strArg _ _ _) fun _ =>
        raises_locationNew _ _ _ _)
    cases ld <;> first | exact raises_layersFromValues _ | exact .error .typ
  | _ => rw [xmlDictToLocation_other (by simp)]; exact .error .typ

theorem raises_locationsFromValues (vs : List XVal) : Raises XmlExc (locationsFromValues vs) := by
  induction vs with
  | nil => exact .ok _
  | cons v vs ih =>
    rw [locationsFromValues]
    exact .bind (raises_xmlDictToLocation v) fun _ => .bind ih fun _ => .ok _

/-- **C73** whatever the element is: a location is returned, or a `KeyError`, `TypeError`, `AttributeError` or `ValueError`
is raised; no other exception. -/
theorem C73_exceptions (x : Xml) : Raises XmlExc (fromXmlElement x) ∧ Raises XmlExc (fromXmlElements x) := by
  constructor
  · exact .bind (raises_xmlSubscript _ _) fun v => raises_xmlDictToLocation v
  · refine .bind (raises_xmlSubscript _ _) fun v => .bind (raises_xmlSubscript _ _) fun e => ?_
    cases e with
    | list l => exact raises_locationsFromValues l
    | dict d => exact .bind (raises_xmlDictToLocation _) fun _ => .ok _
    | _ => exact .error .vlu

/-- **C73** and for texts, the parser's error besides. -/
theorem C73_text_exceptions (text : PyStr) : Raises (fun e => XmlExc e ∨ e = .other) (fromXmlText text) ∧
    Raises (fun e => XmlExc e ∨ e = .other) (fromXmlTexts text) := by
  have h : Raises (fun e => XmlExc e ∨ e = .other) (readXml text) := by
    unfold readXml
    cases parseXml text with
    | none => exact .error (.inr rfl)
    | some x => exact .ok _
  exact ⟨.bind h fun x => (C73_exceptions x).1.mono fun _ => .inl, .bind h fun x => (C73_exceptions x).2.mono fun _ => .inl⟩

/-! ## examples -/

/-- the hypotheses are met, and the specification holds for a document with comments, references and CDATA sections -/
example : ∃ s x, Normalised exXmlText s ∧ XmlDocument s x ∧ LocationElement x exLocXml := by
  have hn : Normalised exXmlText (universalNewlines exXmlText) := .inl ⟨rfl, by decide⟩
  obtain ⟨x, h1, h2⟩ := ((C73_text hn exLocXml []).1).1 (by decide +kernel)
  exact ⟨_, x, hn, h1, h2⟩

/-- all four exceptions occur -/
example : fromXmlText py!"<x/>" = .error .keyError ∧ fromXmlText py!"<ahbLocation/>" = .error .typeError ∧
    fromXmlText py!"<ahbLocation><layers><ahbLocationLayer>x</ahbLocationLayer></layers></ahbLocation>" = .error .attributeError ∧
    fromXmlTexts py!"<ahbLocations><ahbLocation/></ahbLocations>" = .error .valueError ∧
    fromXmlTexts py!"<ahbLocations>" = .error .other := by decide +kernel

/-- of several invalid values the first field decides: an invalid key is a `ValueError` although the segment code is no text,
and a segment code that is no text is a `TypeError` although the qualifier is invalid; a missing argument comes before both -/
example : fromXmlText py!"<ahbLocation><layers><ahbLocationLayer><segment_group_key>x</segment_group_key><opening_segment_code><y/></opening_segment_code><opening_qualifier>-</opening_qualifier></ahbLocationLayer><ahbLocationLayer/></layers></ahbLocation>" = .error .valueError ∧
    fromXmlText py!"<ahbLocation><layers><ahbLocationLayer><segment_group_key>SG1</segment_group_key><opening_segment_code><y/></opening_segment_code><opening_qualifier>-</opening_qualifier></ahbLocationLayer><ahbLocationLayer/></layers></ahbLocation>" = .error .typeError ∧
    fromXmlText py!"<ahbLocation><layers><ahbLocationLayer><segment_group_key>x</segment_group_key></ahbLocationLayer><ahbLocationLayer/></layers></ahbLocation>" = .error .typeError := by
  decide +kernel

/-- `nil="false"` is no mark -/
example : ¬ MarkedNil (.elem py!"qualifier" [(py!"ns0:nil", py!"false")] none []) := by
  rintro ⟨mid, h⟩
  simp only [Xml.attrib, List.mem_singleton, Prod.mk.injEq] at h
  exact absurd h.2 (by decide)

end Verif
