import Verif.Proofs.XmlText
import Verif.Proofs.JsonText
import Verif.Model.XmlReading
import Verif.Props.LocationXml
/-!
# C71 XML texts, C72 the check of MIG files
-/

namespace Verif

/-! ## C71 -/

theorem parseXml_normalised {text s : PyStr} (h : Normalised text s) : parseXml text = xmlDocument s := by
  unfold parseXml
  rcases h with ⟨rfl, h⟩ | ⟨t, rfl, rfl⟩
  · rw [(dropPrefix?_none _ _).2 h]; rfl
  · rw [show dropPrefix? ['\ufeff'] ('\ufeff' :: t) = some t from dropPrefix?_append ['\ufeff'] t]; rfl

/-- **C71** a text is read as the element `x` iff it is an XML document with the root `x`. -/
theorem C71_documents {text s : PyStr} (hs : Normalised text s) (x : Xml) : readXml text = .ok x ↔ XmlDocument s x := by
  rw [← xmlDocument_iff, ← parseXml_normalised hs, readXml]
  cases parseXml text <;> simp

/-- **C71** every other text is refused by the XML parser. -/
theorem C71_not_well_formed {text s : PyStr} (hs : Normalised text s) (h : ¬ ∃ x, XmlDocument s x) :
    readXml text = .error .other ∧ fromXmlText text = .error .other ∧ fromXmlTexts text = .error .other := by
  have h1 : readXml text = .error .other := by
    unfold readXml
    cases hp : parseXml text with
    | none => rfl
    | some x =>
      refine absurd ⟨x, (C71_documents hs x).1 ?_⟩ h
      rw [readXml, hp]
  exact ⟨h1, by rw [fromXmlText, h1]; rfl, by rw [fromXmlTexts, h1]; rfl⟩

/-- **C71** reading locations from a text is reading them from the element the text stands for. -/
theorem C71_location_text {text s : PyStr} (hs : Normalised text s) {x : Xml} (h : XmlDocument s x) :
    fromXmlText text = fromXmlElement x ∧ fromXmlTexts text = fromXmlElements x := by
  have := (C71_documents hs x).2 h
  exact ⟨by rw [fromXmlText, this]; rfl, by rw [fromXmlTexts, this]; rfl⟩

theorem xmlData_eq (o : Option PyStr) : xmlData o = trimText o := by
  cases o with
  | none => rfl
  | some s => simp only [trimText, trim_eq]; rfl

mutual
theorem toValue_same : ∀ {x y : Xml}, SameXml x y → x.toValue = y.toValue
  | _, _, .mk (attrib := attrib) ht hc => by
    rw [Xml.toValue, Xml.toValue, xmlData_eq, xmlData_eq, ht, pushChildren_same hc (attrItem attrib)]
theorem pushChildren_same : ∀ {xs ys : List Xml}, SameXmls xs ys → ∀ item, Xml.pushChildren item xs = Xml.pushChildren item ys
  | _, _, .nil => fun _ => rfl
  | _, _, .cons (.mk ht hc) hs => fun item => by
    rw [Xml.pushChildren, Xml.pushChildren, toValue_same (.mk ht hc), pushChildren_same hs]
end

theorem xmlParse_same {x y : Xml} (h : SameXml x y) : xmlParse x = xmlParse y := by
  rw [xmlParse, xmlParse, toValue_same h]
  cases h
  rfl

/-- **C71** the way in which a document is written makes no difference: if the elements of two documents agree up to white space
around the texts, the same locations are read. -/
theorem C71_formatting {text text' s s' : PyStr} (hs : Normalised text s) (hs' : Normalised text' s') {x y : Xml}
    (h : XmlDocument s x) (h' : XmlDocument s' y) (hxy : SameXml x y) :
    fromXmlText text = fromXmlText text' ∧ fromXmlTexts text = fromXmlTexts text' := by
  rw [(C71_location_text hs h).1, (C71_location_text hs h).2, (C71_location_text hs' h').1, (C71_location_text hs' h').2]
  unfold fromXmlElement fromXmlElements
  rw [xmlParse_same hxy]
  exact ⟨rfl, rfl⟩

/-! ### writing -/

theorem natToDec_digits (n : Nat) : Digits 10 (natToDec n) n := by
  have one : ∀ k, k < 10 → hexVal (digitChar k) = some k := by decide
  have key : ∀ fuel n, n ≤ fuel → Digits 10 (natToDecAux fuel n) n := by
    intro fuel
    induction fuel with
    | zero =>
      intro n hn
      obtain rfl : n = 0 := by omega
      exact .one (one 0 (by omega)) (by omega)
    | succ fuel ih =>
      intro n hn
      unfold natToDecAux
      split
      · rename_i h; exact .one (one n h) h
      · have := Digits.snoc (ih (n / 10) (by omega)) (one (n % 10) (by omega)) (by omega)
        rwa [Nat.div_add_mod] at this
  exact key n n (Nat.le_refl n)

theorem escapeText_cases {c : Char} (hc : XmlChar c) : XmlRef (escapeText c) c ∨
    (escapeText c = [c] ∧ c ≠ '<' ∧ c ≠ '&' ∧ c ≠ '>' ∧ c ≠ '\r') := by
  unfold escapeText
  split
  · rename_i h; subst h; exact .inl .amp
  split
  · rename_i h; subst h; exact .inl .lt
  split
  · rename_i h; subst h; exact .inl .gt
  split
  · exact .inl (.dec (natToDec_digits _) hc)
  · rename_i h1 h2 h3 h4
    rw [not_or] at h4
    exact .inr ⟨rfl, h2, h1, h3, h4.1⟩

theorem escapeAttr_cases {c : Char} (hc : XmlChar c) : XmlRef (escapeAttr c) c ∨
    (escapeAttr c = [c] ∧ c ∉ ['\t', '\n', '\r', '<', '&', '"']) := by
  unfold escapeAttr
  split
  · rename_i h; subst h; exact .inl .quot
  split
  · rename_i h; subst h; exact .inl (.dec (ds := py!"9") (.one rfl (by decide)) hc)
  split
  · rename_i h; subst h; exact .inl (.dec (ds := py!"10") (.snoc (s := py!"1") (.one (v := 1) rfl (by decide)) (v := 0) rfl (by decide)) hc)
  · rename_i h1 h2 h3
    rcases escapeText_cases hc with h | ⟨h, h4, h5, h6, h7⟩
    · exact .inl h
    · exact .inr ⟨h, by simp [h1, h2, h3, h4, h5, h7]⟩

theorem attVal_written (v : PyStr) (hv : ∀ c ∈ v, XmlChar c) : XmlAttVal '"' (v.flatMap escapeAttr) v := by
  induction v with
  | nil => exact .nil
  | cons c v ih =>
    have := ih fun d hd => hv d (by simp [hd])
    rw [List.flatMap_cons]
    rcases escapeAttr_cases (hv c (by simp)) with h | ⟨h, hm⟩
    · exact .ref h this
    · rw [h]; exact .char (hv c (by simp)) hm this

theorem attrs_written (as : List (PyStr × PyStr)) (ha : ∀ p ∈ as, XmlName p.1 ∧ (∀ c ∈ p.1, c.toNat < 128) ∧ ∀ c ∈ p.2, XmlChar c) :
    XmlAttrs (writeAttrs as) as := by
  induction as with
  | nil => exact .nil
  | cons p as ih =>
    obtain ⟨k, v⟩ := p
    have h1 := ha (k, v) (by simp)
    have := XmlAttrs.cons (b0 := [' ']) (b1 := []) (b2 := []) (by simp [XmlBlank]) (by simp) (by simp [XmlBlank])
      (by simp [XmlBlank]) h1.1 (.inl rfl) (attVal_written v h1.2.2) (ih fun p hp => ha p (by simp [hp]))
    rw [writeAttrs]
    simpa using this

/-- nothing, or a tag -/
def TagOrEnd (t : PyStr) : Prop := ∀ c u, t = c :: u → c = '<'

theorem escaped_head {s tail : PyStr} (hs : ∀ c ∈ s, XmlChar c) (ht : TagOrEnd tail) : ∀ u, s.flatMap escapeText ++ tail ≠ '>' :: u := by
  intro u h
  cases s with
  | nil => exact absurd (ht _ _ h) (by decide)
  | cons c s =>
    rw [List.flatMap_cons] at h
    rcases escapeText_cases (hs c (by simp)) with hr | ⟨he, _, _, hgt, _⟩
    · obtain ⟨body, hb, -, -⟩ := xmlRef_shape hr
      rw [hb] at h
      simp at h
    · rw [he] at h
      exact hgt (List.cons.inj h).1

theorem content_written (s tail d : PyStr) (xs : List Xml) (hs : ∀ c ∈ s, XmlChar c) (ht : TagOrEnd tail) (h : XmlContent tail d xs) :
    XmlContent (s.flatMap escapeText ++ tail) (s ++ d) xs := by
  induction s with
  | nil => exact h
  | cons c s ih =>
    have hs' : ∀ d ∈ s, XmlChar d := fun d hd => hs d (by simp [hd])
    have := ih hs'
    rw [List.flatMap_cons, List.append_assoc]
    rcases escapeText_cases (hs c (by simp)) with hr | ⟨he, h1, h2, h3, -⟩
    · exact .ref hr this
    · rw [he]
      refine .char (hs c (by simp)) ⟨h1, h2⟩ ?_ this
      rintro ⟨u, hu⟩
      simp only [List.cons_append, List.nil_append, List.cons.injEq] at hu
      cases s with
      | nil => exact absurd (ht _ _ hu.2.symm) (by decide)
      | cons e s =>
        rw [List.flatMap_cons] at hu
        rcases escapeText_cases (hs' e (by simp)) with hr | ⟨he', _⟩
        · obtain ⟨body, hb, -, -⟩ := xmlRef_shape hr
          rw [hb] at hu
          simp at hu
        · rw [he'] at hu
          have hu2 := (List.cons.inj hu.2).2
          exact escaped_head (s := s) (fun d hd => hs' d (by simp [hd])) ht u (by simpa using hu2.symm)

mutual
/-- the element that is read: an empty text is no text -/
def Xml.reread : Xml → Xml
  | .elem tag attrib text children => .elem tag attrib (textOf (text.getD [])) (Xml.rereads children)
def Xml.rereads : List Xml → List Xml
  | [] => []
  | x :: xs => Xml.reread x :: Xml.rereads xs
end

theorem tostring_head (x : Xml) : ∃ u, x.tostring = '<' :: u := by
  cases x
  rw [Xml.tostring]
  split <;> exact ⟨_, rfl⟩

theorem tostrings_head (xs : List Xml) : TagOrEnd (Xml.tostrings xs) := by
  intro c u h
  cases xs with
  | nil => simp [Xml.tostrings] at h
  | cons x xs =>
    obtain ⟨w, hw⟩ := tostring_head x
    rw [Xml.tostrings, hw] at h
    exact (List.cons.inj h).1.symm

mutual
theorem element_written : ∀ {x : Xml}, ValidXml x → XmlElement x.tostring x.reread
  | _, .mk (tag := tag) (attrib := attrib) (text := text) (children := children) ht ha hd hx hc => by
    rw [Xml.tostring, Xml.reread]
    split
    · rename_i h
      obtain ⟨rfl, h2⟩ := h
      rw [List.isEmpty_iff] at h2
      subst h2
      have := XmlElement.empty (b := []) ht.1 (attrs_written attrib ha) hd (by simp [XmlBlank])
      simpa [textOf, Xml.rereads] using this
    · have hx' : ∀ c ∈ text.getD [], XmlChar c := by
        cases text with
        | none => simp
        | some s => exact hx s rfl
      have hcont := content_written (text.getD []) _ _ _ hx' (tostrings_head children) (contents_written hc)
      have := XmlElement.full (b := []) (b' := []) ht.1 (attrs_written attrib ha) hd (by simp [XmlBlank]) (by simp [XmlBlank]) hcont
      simpa using this
theorem contents_written : ∀ {xs : List Xml}, ValidXmls xs → XmlContent (Xml.tostrings xs) [] (Xml.rereads xs)
  | _, .nil => by rw [Xml.tostrings, Xml.rereads]; exact .nil
  | _, .cons h hs => by
    rw [Xml.tostrings, Xml.rereads]
    exact .elem (element_written h) (contents_written hs)
end

mutual
theorem reread_same : ∀ x : Xml, SameXml x.reread x
  | .elem tag attrib text children => by
    rw [Xml.reread]
    refine .mk ?_ (rereads_same children)
    cases text with
    | none => rfl
    | some s => cases s <;> rfl
theorem rereads_same : ∀ xs : List Xml, SameXmls (Xml.rereads xs) xs
  | [] => by rw [Xml.rereads]; exact .nil
  | x :: xs => by rw [Xml.rereads]; exact .cons (reread_same x) (rereads_same xs)
end

/-! no carriage returns are written -/

theorem name_noCr {s : PyStr} (h : XmlName s) : '\r' ∉ s := by
  obtain ⟨c, t, rfl, hc, ht⟩ := (xmlName_iff' _).1 h
  intro hm
  rcases List.mem_cons.1 hm with rfl | hm
  · exact absurd hc (by decide)
  · exact absurd (ht _ hm) (by decide)

theorem escapeText_noCr (c : Char) : '\r' ∉ escapeText c := by
  unfold escapeText
  split
  · decide
  split
  · decide
  split
  · decide
  split
  · simp only [List.mem_append, not_or]
    refine ⟨⟨by decide, ?_⟩, by decide⟩
    intro hm
    have := List.all_eq_true.1 (natToDec_spec c.toNat).2.1 _ hm
    exact absurd this (by decide)
  · rename_i h
    rw [not_or] at h
    simp only [List.mem_singleton]
    exact Ne.symm h.1

theorem escapeAttr_noCr (c : Char) : '\r' ∉ escapeAttr c := by
  unfold escapeAttr
  split
  · decide
  split
  · decide
  split
  · decide
  · exact escapeText_noCr c

theorem writeAttrs_noCr (as : List (PyStr × PyStr)) (ha : ∀ p ∈ as, XmlName p.1) : '\r' ∉ writeAttrs as := by
  induction as with
  | nil => simp [writeAttrs]
  | cons p as ih =>
    obtain ⟨k, v⟩ := p
    rw [writeAttrs]
    have h1 := name_noCr (ha (k, v) (by simp))
    have h2 := ih fun p hp => ha p (by simp [hp])
    have h3 : '\r' ∉ v.flatMap escapeAttr := by
      intro hm
      obtain ⟨c, _, hc⟩ := List.mem_flatMap.1 hm
      exact escapeAttr_noCr c hc
    simp only [List.cons_append, List.append_assoc, List.mem_cons, List.mem_append, Char.reduceEq, false_or, not_or]
    exact ⟨h1, h3, h2⟩

mutual
theorem tostring_noCr : ∀ {x : Xml}, ValidXml x → '\r' ∉ x.tostring
  | _, .mk (tag := tag) (attrib := attrib) (text := text) (children := children) ht ha hd hx hc => by
    have h1 := name_noCr ht.1
    have h2 := writeAttrs_noCr attrib fun p hp => (ha p hp).1
    have h3 := tostrings_noCr hc
    have h4 : '\r' ∉ (text.getD []).flatMap escapeText := by
      intro hm
      obtain ⟨c, _, hc⟩ := List.mem_flatMap.1 hm
      exact escapeText_noCr c hc
    rw [Xml.tostring]
    split
    · simp only [List.cons_append, List.mem_cons, List.mem_append, Char.reduceEq, false_or, not_or, List.not_mem_nil, or_false]
      simp [h1, h2]
    · simp only [List.cons_append, List.mem_cons, List.mem_append, Char.reduceEq, false_or, not_or, List.not_mem_nil, or_false]
      simp [h1, h2, h3, h4]
theorem tostrings_noCr : ∀ {xs : List Xml}, ValidXmls xs → '\r' ∉ Xml.tostrings xs
  | _, .nil => by simp [Xml.tostrings]
  | _, .cons h hs => by
    rw [Xml.tostrings, List.mem_append, not_or]
    exact ⟨tostring_noCr h, tostrings_noCr hs⟩
end

/-- **C71** what lxml writes for an element is a document with this element, up to white space around texts. -/
theorem C71_tostring {x : Xml} (h : ValidXml x) : ∃ y, readXml x.tostring = .ok y ∧ SameXml y x := by
  refine ⟨x.reread, ?_, reread_same x⟩
  have hn : Normalised x.tostring x.tostring := by
    left
    refine ⟨(universalNewlines_self (tostring_noCr h)).symm, ?_⟩
    obtain ⟨u, hu⟩ := tostring_head x
    rw [hu]
    rintro ⟨t, ht⟩
    exact absurd (List.cons.inj ht).1 (by decide)
  refine (C71_documents hn _).2 ⟨[], [], x.tostring, [], by simp, .inl rfl, .nil, element_written h, .nil⟩

theorem fromXml_same {x y : Xml} (h : SameXml x y) : fromXmlElement x = fromXmlElement y ∧ fromXmlElements x = fromXmlElements y := by
  unfold fromXmlElement fromXmlElements
  rw [xmlParse_same h]
  exact ⟨rfl, rfl⟩

/-- **C71** handing over an element is the same as handing over its text (the code serialises elements and parses them again). -/
theorem C71_element_or_text {x : Xml} (h : ValidXml x) :
    fromXmlText x.tostring = fromXmlElement x ∧ fromXmlTexts x.tostring = fromXmlElements x := by
  obtain ⟨y, h1, h2⟩ := C71_tostring h
  rw [fromXmlText, fromXmlTexts, h1]
  exact fromXml_same h2

theorem okBind {α β : Type} {x : PyRes α} {f : α → PyRes β} {b : β} (h : (x >>= f) = .ok b) : ∃ a, x = .ok a ∧ f a = .ok b := by
  cases x with
  | error e => cases h
  | ok a => exact ⟨a, rfl, h⟩

theorem isXmlChar_valid {s : PyStr} (h : s.all isXmlChar = true) : ∀ c ∈ s, XmlChar c := fun c hc =>
  (xmlChar_iff c).2 (List.all_eq_true.1 h c hc)

theorem scalarElement_valid {name : PyStr} {o : Option PyStr} {x : Xml} (hn : XmlName name ∧ ∀ c ∈ name, c.toNat < 128)
    (h : scalarElement name o = .ok x) : ValidXml x := by
  cases o with
  | none =>
    cases h
    refine .mk hn ?_ (by decide) (by simp) .nil
    have e : ∀ s : PyStr, s.all isXmlChar = true → ∀ c ∈ s, XmlChar c := fun s => isXmlChar_valid
    intro p hp
    simp only [List.mem_cons, List.not_mem_nil, or_false] at hp
    rcases hp with rfl | rfl
    · exact ⟨(xmlName_iff' _).2 ⟨'x', _, rfl, by decide, by decide⟩, by decide, e _ (by decide)⟩
    · exact ⟨(xmlName_iff' _).2 ⟨'n', _, rfl, by decide, by decide⟩, by decide, e _ (by decide)⟩
  | some s =>
    rw [scalarElement] at h
    split at h
    · rename_i hs
      cases h
      refine .mk hn (by simp) (by simp) ?_ .nil
      intro t ht
      cases ht
      exact isXmlChar_valid hs
    · cases h

/-- an ASCII name -/
theorem asciiName {c : Char} {t : PyStr} (h : (isNameStart c && t.all isNameChar && (c :: t).all fun d => decide (d.toNat < 128)) = true) :
    XmlName (c :: t) ∧ ∀ d ∈ c :: t, d.toNat < 128 := by
  simp only [Bool.and_eq_true, List.all_eq_true, decide_eq_true_eq] at h
  exact ⟨(xmlName_iff' _).2 ⟨c, t, rfl, h.1.1, h.1.2⟩, h.2⟩

theorem plainElement_valid {name : PyStr} {xs : List Xml} (hn : XmlName name ∧ ∀ c ∈ name, c.toNat < 128) (h : ValidXmls xs) :
    ValidXml (.elem name [] none xs) := .mk hn (by simp) (by simp) (by simp) h

theorem layerToXml_valid {l : AhbLocationLayer} {x : Xml} (h : layerToXml l = .ok x) : ValidXml x := by
  unfold layerToXml at h
  obtain ⟨a, ha, h⟩ := okBind h
  obtain ⟨b, hb, h⟩ := okBind h
  obtain ⟨c, hc, h⟩ := okBind h
  cases h
  exact plainElement_valid (asciiName (by decide)) (.cons (scalarElement_valid (asciiName (by decide)) ha)
    (.cons (scalarElement_valid (asciiName (by decide)) hb) (.cons (scalarElement_valid (asciiName (by decide)) hc) .nil)))

theorem layersToXml_valid {ls : List AhbLocationLayer} : ∀ {xs : List Xml}, layersToXml ls = .ok xs → ValidXmls xs := by
  induction ls with
  | nil => intro xs h; cases h; exact .nil
  | cons l ls ih =>
    intro xs h
    rw [layersToXml] at h
    obtain ⟨a, ha, h⟩ := okBind h
    obtain ⟨b, hb, h⟩ := okBind h
    cases h
    exact .cons (layerToXml_valid ha) (ih hb)

theorem toXmlElement_valid {l : AhbLocation} {x : Xml} (h : toXmlElement l = .ok x) : ValidXml x := by
  unfold toXmlElement at h
  obtain ⟨a, ha, h⟩ := okBind h
  obtain ⟨b, hb, h⟩ := okBind h
  obtain ⟨c, hc, h⟩ := okBind h
  obtain ⟨d, hd, h⟩ := okBind h
  cases h
  exact plainElement_valid (asciiName (by decide)) (.cons (plainElement_valid (asciiName (by decide)) (layersToXml_valid ha))
    (.cons (scalarElement_valid (asciiName (by decide)) hb) (.cons (scalarElement_valid (asciiName (by decide)) hc)
      (.cons (scalarElement_valid (asciiName (by decide)) hd) .nil))))

theorem locationsToXml_valid {ls : List AhbLocation} : ∀ {xs : List Xml}, locationsToXml ls = .ok xs → ValidXmls xs := by
  induction ls with
  | nil => intro xs h; cases h; exact .nil
  | cons l ls ih =>
    intro xs h
    rw [locationsToXml] at h
    obtain ⟨a, ha, h⟩ := okBind h
    obtain ⟨b, hb, h⟩ := okBind h
    cases h
    exact .cons (toXmlElement_valid ha) (ih hb)

/-- **C71** the XML text written for a location: it is read back except for the known defects (C41). -/
theorem C71_round_trip_text (l : AhbLocation) (h : l.Constructed) (hx : l.XmlText) :
    ∃ x, toXmlElement l = .ok x ∧
      fromXmlText x.tostring = if l.layers.length = 1 then .error .attributeError else .ok l.trimmed := by
  obtain ⟨x, h1, h2⟩ := C41_location_round_trip_exact l h hx
  exact ⟨x, h1, by rw [(C71_element_or_text (toXmlElement_valid h1)).1, h2]⟩

/-- **C71** the same for lists of locations. -/
theorem C71_round_trip_texts (ls : List AhbLocation) (h : ∀ l ∈ ls, l.Constructed ∧ l.XmlText) :
    ∃ x, toXmlElements ls = .ok x ∧ fromXmlTexts x.tostring = if ls = [] then .error .typeError
        else if ∃ l ∈ ls, l.layers.length = 1 then .error .attributeError else .ok (ls.map AhbLocation.trimmed) := by
  obtain ⟨x, h1, h2⟩ := C41_locations_round_trip_exact ls h
  refine ⟨x, h1, ?_⟩
  have hv : ValidXml x := by
    unfold toXmlElements at h1
    obtain ⟨a, ha, h1⟩ := okBind h1
    cases h1
    exact plainElement_valid (asciiName (by decide)) (locationsToXml_valid ha)
  rw [(C71_element_or_text hv).2, h2]

/-! ### examples -/

/-- an XML file with a location: declaration, comment, processing instruction, CDATA section, references, both kinds of quotes -/
def exXmlText : PyStr :=
  py!"<?xml version=\"1.0\"?>\r\n<!-- a location --><?note x?>\r\n<ahbLocation>\r\n <layers>\r\n  <ahbLocationLayer>\r\n   <segment_group_key xmlns:ns0='xsi' ns0:nil='true'/>\r\n   <opening_segment_code>UNH</opening_segment_code>\r\n   <opening_qualifier ns0:nil=\"true\" />\r\n  </ahbLocationLayer>\r\n  <ahbLocationLayer><segment_group_key>SG4</segment_group_key><opening_segment_code>I<!-- -->DE</opening_segment_code><opening_qualifier>24</opening_qualifier></ahbLocationLayer>\r\n </layers>\r\n <segment_code> IDE </segment_code>\r\n <data_element_id>7495</data_element_id>\r\n <qualifier>2&#x34;<![CDATA[ ]]>a</qualifier>\r\n</ahbLocation>\r\n"

example : fromXmlText exXmlText = .ok exLocXml := by decide +kernel

/-- there is a document for the theorems about texts -/
example : ∃ x, XmlDocument (universalNewlines exXmlText) x ∧ Normalised exXmlText (universalNewlines exXmlText) := by
  have h : (xmlDocument (universalNewlines exXmlText)).isSome = true := by decide +kernel
  obtain ⟨x, hx⟩ := Option.isSome_iff_exists.1 h
  exact ⟨x, (xmlDocument_iff _ _).1 hx, .inl ⟨rfl, by decide⟩⟩

/-- texts that are refused -/
example : fromXmlText py!"<a><b></a></b>" = .error .other ∧ fromXmlText py!"<a x='1' x='2'/>" = .error .other ∧
    fromXmlText py!"<a>]]></a>" = .error .other ∧ fromXmlText py!"<a/><b/>" = .error .other ∧
    fromXmlText py!"<a>&nbsp;</a>" = .error .other ∧ fromXmlText py!" <?xml version='1.0'?><a/>" = .error .other ∧
    fromXmlText py!"<?xml version='1.0?><a/>" = .error .other ∧ fromXmlText py!"<?xml encoding='utf-8'?><a/>" = .error .other := by
  decide +kernel

/-- the location of C41 with a qualifier that has to be escaped -/
example : (toXmlElement { exLocXml with qualifier := some py!"<ä & \"b\">" } >>= fun x => fromXmlText x.tostring) =
    .ok { exLocXml with qualifier := some py!"<ä & \"b\">" } := by decide +kernel

end Verif
