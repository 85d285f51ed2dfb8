import Verif.Spec.LocationXml
import Verif.Proofs.ValuePool
import Verif.Proofs.Codes
/-!
# Lemmas about the XML form of locations
-/

namespace Verif

theorem dropWhile_eq_self {α : Type} (p : α → Bool) (l : List α) (h : ∀ x ∈ l, p x = false) : l.dropWhile p = l := by
  cases l with
  | nil => rfl
  | cons x l => simp [h x (by simp)]

theorem strip_eq_self {s : PyStr} (h : ∀ c ∈ s, isSpace c = false) : strip s = s := by
  unfold strip rstrip lstrip
  rw [dropWhile_eq_self _ _ h, dropWhile_eq_self, List.reverse_reverse]
  intro c hc
  exact h c (List.mem_reverse.1 hc)

/-- letters and digits of a code -/
def CodeText (s : PyStr) : Prop := ∀ c ∈ s, isAZ c = true ∨ isDigit c = true

theorem CodeText.strip {s : PyStr} (h : CodeText s) : Verif.strip s = s :=
  strip_eq_self fun c hc => (h c hc).elim not_isSpace_of_isAZ not_isSpace_of_isDigit

theorem isXmlChar_of_digit {c : Char} (h : isDigit c = true) : isXmlChar c = true := by
  have key : ∀ r ∈ digitRanges, 32 ≤ r.1 ∧ (r.2 < 0xFFFE ∨ 0xFFFF < r.1) := by decide
  simp only [isDigit, List.any_eq_true, Bool.and_eq_true, decide_eq_true_eq] at h
  obtain ⟨r, hr, h1, h2⟩ := h
  have := key r hr
  simp only [isXmlChar, Bool.or_eq_true, beq_iff_eq, Bool.and_eq_true, decide_eq_true_eq, bne_iff_ne]
  right
  refine ⟨⟨?_, ?_⟩, ?_⟩ <;> omega

theorem isXmlChar_of_AZ {c : Char} (h : isAZ c = true) : isXmlChar c = true := by
  simp only [isAZ, Bool.and_eq_true, decide_eq_true_eq] at h
  simp only [isXmlChar, Bool.or_eq_true, beq_iff_eq, Bool.and_eq_true, decide_eq_true_eq, bne_iff_ne]
  right
  refine ⟨⟨?_, ?_⟩, ?_⟩ <;> omega

theorem CodeText.xml {s : PyStr} (h : CodeText s) : s.all isXmlChar = true := by
  rw [List.all_eq_true]
  exact fun c hc => (h c hc).elim isXmlChar_of_AZ isXmlChar_of_digit

theorem codeText_sgKey {s : PyStr} (h : IsSgKey s) : CodeText s ∧ s ≠ [] := by
  obtain ⟨d, _, hd, rfl⟩ := h
  refine ⟨fun c hc => ?_, by simp⟩
  rcases List.mem_append.1 hc with hc | hc
  · left
    simp only [List.mem_cons, List.not_mem_nil, or_false] at hc
    rcases hc with rfl | rfl <;> decide
  · exact .inr (hd c hc)

theorem codeText_three {s : PyStr} (h : IsThreeLetterCode s) : CodeText s ∧ s ≠ [] :=
  ⟨fun c hc => .inl (mem_capitals.1 (h.2 c hc)), by intro h'; rw [h'] at h; exact absurd h.1 (by decide)⟩

theorem codeText_four {s : PyStr} (h : IsFourDigits s) : CodeText s ∧ s ≠ [] :=
  ⟨fun c hc => .inr (h.2 c hc), by intro h'; rw [h'] at h; exact absurd h.1 (by decide)⟩

theorem codeText_lettersDigits {s : PyStr} (h : IsLettersThenDigits s) : CodeText s := by
  obtain ⟨l, d, hl, hd, rfl⟩ := h
  intro c hc
  rcases List.mem_append.1 hc with hc | hc
  · exact .inl (mem_capitals.1 (hl c hc))
  · exact .inr (hd c hc)

theorem trimText_code {o : Option PyStr} (h : ∀ s, o = some s → CodeText s ∧ s ≠ []) : trimText o = o := by
  cases o with
  | none => rfl
  | some s =>
    obtain ⟨h1, h2⟩ := h s rfl
    simp [trimText, trim_eq, h1.strip, h2]

/-- the value after `_replace_nil_element_with_none` -/
def cleanVal (o : Option PyStr) : XVal :=
  match trimText o with
  | none => .none
  | some s => .str s

/-- the value of the XML element for an optional text -/
def scalarVal (o : Option PyStr) : XVal :=
  match o with
  | none => .dict [(py!"@xmlns:ns0", .str py!"xsi"), (py!"@ns0:nil", .str py!"true")]
  | some s => if strip s = [] then .none else .str (strip s)

theorem clean_scalarVal (o : Option PyStr) : (if isNil (scalarVal o) then .none else scalarVal o) = cleanVal o := by
  cases o with
  | none => rfl
  | some s =>
    unfold scalarVal cleanVal trimText
    by_cases h : strip s = [] <;> simp [trim_eq, h, isNil]

theorem scalarElement_ok (name : PyStr) (o : Option PyStr) (h : ∀ s, o = some s → s.all isXmlChar = true) :
    ∃ a t, scalarElement name o = .ok (.elem name a t []) ∧ Xml.toValue (.elem name a t []) = scalarVal o := by
  cases o with
  | none => exact ⟨_, _, rfl, rfl⟩
  | some s =>
    refine ⟨[], some s, by simp [scalarElement, h s rfl], ?_⟩
    simp only [Xml.toValue, Xml.pushChildren, attrItem, List.isEmpty_nil, if_true, xmlData, Option.bind_some, scalarVal]
    by_cases hs : strip s = [] <;> simp [hs, elementValue]

/-- the dictionary of a layer -/
def layerVal (l : AhbLocationLayer) : XVal :=
  .dict [(py!"segment_group_key", scalarVal l.segmentGroupKey),
    (py!"opening_segment_code", scalarVal (some l.openingSegmentCode)),
    (py!"opening_qualifier", scalarVal l.openingQualifier)]

/-- the facts about a constructed layer -/
structure GoodLayer (l : AhbLocationLayer) : Prop where
  key : ∀ s, l.segmentGroupKey = some s → CodeText s ∧ s ≠ []
  code : CodeText l.openingSegmentCode ∧ l.openingSegmentCode ≠ []
  qual : ∀ s, l.openingQualifier = some s → CodeText s
  new : AhbLocationLayer.new l.segmentGroupKey (some l.openingSegmentCode) l.openingQualifier = .ok l

theorem goodLayer {l : AhbLocationLayer}
    (h : AhbLocationLayer.new l.segmentGroupKey (some l.openingSegmentCode) l.openingQualifier = .ok l) : GoodLayer l := by
  have h' := h
  unfold AhbLocationLayer.new at h
  split at h
  · simp at h
  · rename_i h1
    simp only at h
    split at h
    · simp at h
    · rename_i h2
      split at h
      · simp at h
      · rename_i h3
        simp only [Bool.not_eq_true', Bool.not_eq_false] at h1 h3
        refine ⟨fun s hs => codeText_sgKey ((optMatches_iff sgKeyRe_iff _).1 h1 s hs), codeText_three
          ((segmentCode3Re_iff _).1 ?_), fun s hs =>
            codeText_lettersDigits ((optMatches_iff openingQualifierRe_iff _).1 h3 s hs), h'⟩
        cases hm : segmentCode3Re.fullMatch l.openingSegmentCode with
        | none => simp [hm] at h2
        | some _ => rfl

theorem layerToXml_ok {l : AhbLocationLayer} (h : GoodLayer l) :
    ∃ a t c, layerToXml l = .ok (.elem py!"ahbLocationLayer" a t c) ∧
      Xml.toValue (.elem py!"ahbLocationLayer" a t c) = layerVal l := by
  obtain ⟨a1, t1, h1, v1⟩ := scalarElement_ok py!"segment_group_key" l.segmentGroupKey (fun s hs => (h.key s hs).1.xml)
  obtain ⟨a2, t2, h2, v2⟩ := scalarElement_ok py!"opening_segment_code" (some l.openingSegmentCode)
    (fun s hs => by cases hs; exact h.code.1.xml)
  obtain ⟨a3, t3, h3, v3⟩ := scalarElement_ok py!"opening_qualifier" l.openingQualifier (fun s hs => (h.qual s hs).xml)
  refine ⟨[], none, _, by simp only [layerToXml, h1, h2, h3, Bind.bind, Except.bind, pure, Except.pure]; rfl, ?_⟩
  rw [Xml.toValue]
  simp only [Xml.pushChildren, v1, v2, v3]
  rfl

theorem trimText_layerKey {l : AhbLocationLayer} (h : GoodLayer l) :
    trimText l.segmentGroupKey = l.segmentGroupKey ∧ trimText (some l.openingSegmentCode) = some l.openingSegmentCode :=
  ⟨trimText_code h.key, trimText_code fun s hs => by cases hs; exact h.code⟩

theorem new_trimmed {l : AhbLocationLayer} (h : GoodLayer l) :
    AhbLocationLayer.new l.segmentGroupKey (some l.openingSegmentCode) (trimText l.openingQualifier) =
      .ok { l with openingQualifier := trimText l.openingQualifier } := by
  have hq : trimText l.openingQualifier = l.openingQualifier ∨ trimText l.openingQualifier = none := by
    cases ho : l.openingQualifier with
    | none => exact .inl rfl
    | some s =>
      rw [trimText, trim_eq, (h.qual s ho).strip]
      by_cases hs : s = [] <;> simp [hs]
  rcases hq with hq | hq
  · rw [hq]; exact h.new
  · rw [hq]
    have := h.new
    unfold AhbLocationLayer.new at this ⊢
    split at this
    · simp at this
    · rename_i h1
      rw [if_neg h1]
      simp only at this ⊢
      split at this
      · simp at this
      · rename_i h2
        rw [if_neg h2]
        simp [optMatches]

theorem strArg_clean {d : List (PyStr × XVal)} {key : PyStr} {r : Bool} {o : Option PyStr}
    (h : dictGet key d = some (cleanVal o)) : strArg d key r = .ok (trimText o) := by
  unfold strArg
  rw [h]
  unfold cleanVal
  cases trimText o <;> rfl

theorem matchArg_bind_ok {β : Type} {d : List (PyStr × XVal)} {k : PyStr} {r : Bool} {re : Re} {f : Option PyStr → PyRes β} {b : β}
    (hf : ∀ v, f v = .ok b → optMatches re v = true) :
    (matchArg d k r re).bind f = .ok b ↔ (strArg d k r).bind f = .ok b := by
  unfold matchArg
  cases strArg d k r with
  | error e => rfl
  | ok v =>
    simp only [Bind.bind, Except.bind]
    by_cases h : optMatches re v = true
    · rw [if_pos h]; rfl
    · rw [if_neg h]
      exact ⟨fun h' => (by cases h'), fun h' => absurd (hf v h') h⟩

theorem matchArg_clean {d : List (PyStr × XVal)} {key : PyStr} {r : Bool} {re : Re} {o : Option PyStr}
    (h : dictGet key d = some (cleanVal o)) (hm : optMatches re (trimText o) = true) : matchArg d key r re = .ok (trimText o) := by
  unfold matchArg
  rw [strArg_clean h]
  exact if_pos hm

theorem layerNew_matches {k o q : Option PyStr} {l : AhbLocationLayer} (h : AhbLocationLayer.new k o q = .ok l) :
    optMatches sgKeyRe k = true ∧ optMatches segmentCode3Re o = true := by
  unfold AhbLocationLayer.new at h
  split at h
  · cases h
  rename_i h1
  cases o with
  | none => cases h
  | some o =>
    simp only at h
    split at h
    · cases h
    · rename_i h2
      refine ⟨by simpa using h1, ?_⟩
      cases hm : segmentCode3Re.fullMatch o with
      | none => rw [hm] at h2; exact absurd rfl h2
      | some x => simp [optMatches, hm]

theorem locationNew_matches {ls : List AhbLocationLayer} {c e q : Option PyStr} {l : AhbLocation} (h : AhbLocation.new ls c e q = .ok l) :
    optMatches segmentCode3Re c = true ∧ optMatches dataElement4Re e = true := by
  unfold AhbLocation.new at h
  split at h
  · cases h
  split at h
  · cases h
  split at h
  · cases h
  · rename_i h1 h2
    exact ⟨by simpa using h1, by simpa using h2⟩

/-- the arguments of a layer without the order of the validators -/
def layerPlain (d : List (PyStr × XVal)) : PyRes AhbLocationLayer :=
  if (d.any fun p => ![py!"segment_group_key", py!"opening_segment_code", py!"opening_qualifier"].contains p.1) = true then .error .typeError
  else (strArg d py!"segment_group_key" true).bind fun key => (strArg d py!"opening_segment_code" true).bind fun code =>
    (strArg d py!"opening_qualifier" true).bind fun q => AhbLocationLayer.new key code q

theorem strArg_required {d : List (PyStr × XVal)} {k : PyStr} {v : Option PyStr} (h : strArg d k true = .ok v) : dictGet k d ≠ none := by
  intro hn
  unfold strArg at h
  rw [hn] at h
  cases h

theorem except_bind_ok {α β : Type} {x : PyRes α} {f : α → PyRes β} {b : β} (h : x.bind f = .ok b) : ∃ a, x = .ok a ∧ f a = .ok b := by
  cases x with
  | error e => cases h
  | ok a => exact ⟨a, rfl, h⟩

theorem layerFromDict_plain (d : List (PyStr × XVal)) (l : AhbLocationLayer) : layerFromDict d = .ok l ↔ layerPlain d = .ok l := by
  unfold layerFromDict layerPlain
  by_cases hu : (d.any fun p => ![py!"segment_group_key", py!"opening_segment_code", py!"opening_qualifier"].contains p.1) = true
  · rw [if_pos hu, if_pos hu]
  rw [if_neg hu, if_neg hu]
  have hmid : ∀ key : Option PyStr, ((matchArg d py!"opening_segment_code" true segmentCode3Re).bind fun code =>
      (strArg d py!"opening_qualifier" true).bind fun q => AhbLocationLayer.new key code q) = .ok l ↔
      ((strArg d py!"opening_segment_code" true).bind fun code =>
      (strArg d py!"opening_qualifier" true).bind fun q => AhbLocationLayer.new key code q) = .ok l := by
    intro key
    refine matchArg_bind_ok fun v hv => ?_
    obtain ⟨q, -, h⟩ := except_bind_ok hv
    exact (layerNew_matches h).2
  have hall : ((matchArg d py!"segment_group_key" true sgKeyRe).bind fun key =>
      (matchArg d py!"opening_segment_code" true segmentCode3Re).bind fun code =>
      (strArg d py!"opening_qualifier" true).bind fun q => AhbLocationLayer.new key code q) = .ok l ↔
      ((strArg d py!"segment_group_key" true).bind fun key => (strArg d py!"opening_segment_code" true).bind fun code =>
      (strArg d py!"opening_qualifier" true).bind fun q => AhbLocationLayer.new key code q) = .ok l := by
    refine (matchArg_bind_ok fun v hv => ?_).trans ?_
    · obtain ⟨c, -, h⟩ := except_bind_ok hv
      obtain ⟨q, -, h⟩ := except_bind_ok h
      exact (layerNew_matches h).1
    · cases strArg d py!"segment_group_key" true with
      | error e => exact Iff.rfl
      | ok key => exact hmid key
  by_cases hm : ([py!"segment_group_key", py!"opening_segment_code", py!"opening_qualifier"].any fun k => (dictGet k d).isNone) = true
  · rw [if_pos hm]
    constructor
    · intro h; cases h
    · intro h
      obtain ⟨a, ha, h⟩ := except_bind_ok h
      obtain ⟨b, hb, h⟩ := except_bind_ok h
      obtain ⟨c, hc, h⟩ := except_bind_ok h
      have h1 := strArg_required ha
      have h2 := strArg_required hb
      have h3 := strArg_required hc
      simp only [List.any_cons, List.any_nil, Bool.or_false, Bool.or_eq_true, Option.isNone_iff_eq_none] at hm
      rcases hm with hm | hm | hm <;> contradiction
  · rw [if_neg hm]
    exact hall

theorem layer_round_trip {l : AhbLocationLayer} (h : GoodLayer l) :
    (replaceNil (layerVal l) >>= layerFromDict) = .ok { l with openingQualifier := trimText l.openingQualifier } := by
  simp only [replaceNil, layerVal, List.map_cons, List.map_nil, clean_scalarVal, Bind.bind, Except.bind]
  rw [layerFromDict_plain]
  unfold layerPlain
  rw [if_neg (by simp)]
  rw [strArg_clean (o := l.segmentGroupKey) rfl, strArg_clean (o := some l.openingSegmentCode) rfl,
    strArg_clean (o := l.openingQualifier) rfl, (trimText_layerKey h).1, (trimText_layerKey h).2]
  simp only [Except.bind]
  exact new_trimmed h

theorem layersFromValues_ok {ls : List AhbLocationLayer} (h : ∀ l ∈ ls, GoodLayer l) :
    layersFromValues (ls.map layerVal) = .ok (ls.map fun x => { x with openingQualifier := trimText x.openingQualifier }) := by
  induction ls with
  | nil => rfl
  | cons l ls ih =>
    have h1 := layer_round_trip (h l (by simp))
    simp only [List.map_cons, layersFromValues]
    simp only [Bind.bind, Except.bind] at h1 ⊢
    cases hr : replaceNil (layerVal l) with
    | error e => rw [hr] at h1; simp at h1
    | ok d =>
      rw [hr] at h1
      simp only at h1 ⊢
      rw [h1, ih (fun x hx => h x (by simp [hx]))]
      rfl

theorem pushChildren_list (k : PyStr) (l : List XVal) (xs : List Xml) (h : ∀ x ∈ xs, x.tag = k) :
    Xml.pushChildren (some [(k, .list l)]) xs = some [(k, .list (l ++ xs.map Xml.toValue))] := by
  induction xs generalizing l with
  | nil => simp [Xml.pushChildren]
  | cons x xs ih =>
    cases x with
    | elem t a tx c =>
      have ht : t = k := h (.elem t a tx c) (by simp)
      rw [Xml.pushChildren, ht]
      have : pushData (some [(k, .list l)]) k (Xml.toValue (.elem k a tx c)) =
          [(k, .list (l ++ [Xml.toValue (.elem k a tx c)]))] := by
        simp [pushData, dictGet, dictSet]
      rw [this, ih _ (fun y hy => h y (by simp [hy]))]
      simp

/-- a dictionary value -/
def IsDict (v : XVal) : Prop := ∃ d, v = .dict d

/-- the dictionary that a non-empty list of children of the same tag makes -/
def collected (k : PyStr) : List XVal → Option (List (PyStr × XVal))
  | [] => none
  | [v] => some [(k, v)]
  | vs => some [(k, .list vs)]

theorem pushChildren_none (k : PyStr) (xs : List Xml) (h : ∀ x ∈ xs, x.tag = k) (hd : ∀ x ∈ xs, IsDict x.toValue) :
    Xml.pushChildren none xs = collected k (xs.map Xml.toValue) := by
  match xs with
  | [] => rfl
  | [.elem t a tx c] =>
    have ht : t = k := h (.elem t a tx c) (by simp)
    clear h hd
    rw [ht]
    simp [Xml.pushChildren, pushData, dictGet, dictSet, collected]
  | .elem t a tx c :: .elem t' a' tx' c' :: xs =>
    have ht : t = k := h (.elem t a tx c) (by simp)
    have ht' : t' = k := h (.elem t' a' tx' c') (by simp)
    have hxs : ∀ x ∈ xs, x.tag = k := fun y hy => h y (by simp [hy])
    obtain ⟨d, hd'⟩ := hd (.elem t a tx c) (by simp)
    clear h hd
    rw [Xml.pushChildren, Xml.pushChildren, ht']
    rw [ht] at hd' ⊢
    have : pushData (some (pushData none k (Xml.toValue (.elem k a tx c)))) k (Xml.toValue (.elem k a' tx' c')) =
        [(k, .list [Xml.toValue (.elem k a tx c), Xml.toValue (.elem k a' tx' c')])] := by
      simp [pushData, dictGet, dictSet, hd']
    rw [this, pushChildren_list _ _ _ hxs]
    simp [collected]

theorem layersToXml_ok {ls : List AhbLocationLayer} (h : ∀ l ∈ ls, GoodLayer l) :
    ∃ xs, layersToXml ls = .ok xs ∧ (∀ x ∈ xs, x.tag = py!"ahbLocationLayer") ∧ xs.map Xml.toValue = ls.map layerVal := by
  induction ls with
  | nil => exact ⟨[], rfl, by simp, rfl⟩
  | cons l ls ih =>
    obtain ⟨xs, h1, h2, h3⟩ := ih (fun x hx => h x (by simp [hx]))
    obtain ⟨a, t, c, h4, h5⟩ := layerToXml_ok (h l (by simp))
    refine ⟨.elem py!"ahbLocationLayer" a t c :: xs, ?_, ?_, ?_⟩
    · simp [layersToXml, h1, h4, Bind.bind, Except.bind, pure, Except.pure]
    · intro x hx
      rcases List.mem_cons.1 hx with rfl | hx
      · rfl
      · exact h2 x hx
    · simp [h3, h5]

/-- the value of the element `layers` for a non-empty list of layers -/
def layersVal (ls : List AhbLocationLayer) : XVal :=
  match ls with
  | [l] => layerVal l
  | ls => .list (ls.map layerVal)

/-- the dictionary of a location -/
def locationVal (l : AhbLocation) : XVal :=
  .dict [(py!"layers", .dict [(py!"ahbLocationLayer", layersVal l.layers)]), (py!"segment_code", scalarVal l.segmentCode),
    (py!"data_element_id", scalarVal l.dataElementId), (py!"qualifier", scalarVal l.qualifier)]

/-- the facts about a constructed location -/
structure GoodLocation (l : AhbLocation) : Prop where
  ne : l.layers ≠ []
  layers : ∀ x ∈ l.layers, GoodLayer x
  code : ∀ s, l.segmentCode = some s → CodeText s ∧ s ≠ []
  de : ∀ s, l.dataElementId = some s → CodeText s ∧ s ≠ []
  xml : ∀ s, l.qualifier = some s → s.all isXmlChar = true
  new : ∀ ls q, ls ≠ [] → AhbLocation.new ls l.segmentCode l.dataElementId q =
    .ok { layers := ls, segmentCode := l.segmentCode, dataElementId := l.dataElementId, qualifier := q }
  real : l.pseudo = false

theorem goodLocation {l : AhbLocation} (h : l.Constructed) (hx : l.XmlText) : GoodLocation l := by
  obtain ⟨h, hl⟩ := h
  unfold AhbLocation.new at h
  split at h
  · simp at h
  · rename_i h1
    split at h
    · simp at h
    · rename_i h2
      split at h
      · simp at h
      · rename_i h3
        have hne : l.layers ≠ [] := by intro h'; rw [h'] at h1; exact h1 (by decide)
        refine ⟨hne, fun x hx => goodLayer (hl x hx), ?_, ?_, fun s hs => List.all_eq_true.2 (hx s hs), ?_, ?_⟩
        · simp only [Bool.not_eq_true', Bool.not_eq_false] at h2
          exact fun s hs => codeText_three ((optMatches_iff segmentCode3Re_iff _).1 h2 s hs)
        · simp only [Bool.not_eq_true', Bool.not_eq_false] at h3
          exact fun s hs => codeText_four ((optMatches_iff dataElement4Re_iff _).1 h3 s hs)
        · intro ls q hls
          unfold AhbLocation.new
          rw [if_neg (by cases ls <;> simp_all), if_neg h2, if_neg h3]
        · simp only [Except.ok.injEq] at h
          rw [← h]

theorem toXmlElement_ok {l : AhbLocation} (h : GoodLocation l) :
    ∃ a t c, toXmlElement l = .ok (.elem py!"ahbLocation" a t c) ∧
      Xml.toValue (.elem py!"ahbLocation" a t c) = locationVal l := by
  obtain ⟨xs, h0, hk, hv⟩ := layersToXml_ok h.layers
  obtain ⟨a1, t1, h1, v1⟩ := scalarElement_ok py!"segment_code" l.segmentCode (fun s hs => (h.code s hs).1.xml)
  obtain ⟨a2, t2, h2, v2⟩ := scalarElement_ok py!"data_element_id" l.dataElementId (fun s hs => (h.de s hs).1.xml)
  obtain ⟨a3, t3, h3, v3⟩ := scalarElement_ok py!"qualifier" l.qualifier h.xml
  refine ⟨[], none, _, by simp only [toXmlElement, h0, h1, h2, h3, Bind.bind, Except.bind, pure, Except.pure]; rfl, ?_⟩
  have hd : ∀ x ∈ xs, IsDict x.toValue := by
    intro x hx
    have : x.toValue ∈ l.layers.map layerVal := by rw [← hv]; exact List.mem_map_of_mem hx
    obtain ⟨y, _, hy⟩ := List.mem_map.1 this
    exact ⟨_, hy.symm⟩
  have hlay : Xml.toValue (.elem py!"layers" [] none xs) = .dict [(py!"ahbLocationLayer", layersVal l.layers)] := by
    rw [Xml.toValue, show attrItem [] = none from rfl, pushChildren_none _ xs hk hd, hv]
    have hne := h.ne
    generalize l.layers = ls at hne
    match ls with
    | [] => exact absurd rfl hne
    | [y] => rfl
    | y :: y' :: ys => rfl
  rw [Xml.toValue]
  simp only [Xml.pushChildren, v1, v2, v3, hlay]
  rfl

theorem trimmed_eq (l : AhbLocation) (h : GoodLocation l) :
    ({ layers := l.layers.map fun x => { x with openingQualifier := trimText x.openingQualifier },
       segmentCode := l.segmentCode, dataElementId := l.dataElementId, qualifier := trimText l.qualifier } : AhbLocation) =
      l.trimmed := by
  have hr := h.real
  cases l
  simp_all [AhbLocation.trimmed]

theorem location_round_trip {l : AhbLocation} (h : GoodLocation l) :
    xmlDictToLocation (locationVal l) = if l.layers.length = 1 then .error .attributeError else .ok l.trimmed := by
  have hsub : (locationVal l).subscript py!"layers" = .ok (.dict [(py!"ahbLocationLayer", layersVal l.layers)]) := rfl
  have hsub2 : (XVal.dict [(py!"ahbLocationLayer", layersVal l.layers)]).subscript py!"ahbLocationLayer" =
    .ok (layersVal l.layers) := rfl
  unfold xmlDictToLocation
  rw [hsub]
  simp only [Bind.bind, Except.bind]
  rw [hsub2]
  by_cases hlen : l.layers.length = 1
  · rw [if_pos hlen]
    obtain ⟨y, hy⟩ := List.length_eq_one_iff.1 hlen
    rw [hy]
    rfl
  · rw [if_neg hlen]
    have hval : layersVal l.layers = .list (l.layers.map layerVal) := by
      unfold layersVal
      split
      · rename_i hy; rw [hy] at hlen; exact absurd rfl hlen
      · rfl
    rw [hval]
    simp only
    rw [layersFromValues_ok h.layers]
    simp only [locationVal]
    have hf : (List.filter (fun p => decide (p.fst ≠ py!"layers"))
      [(py!"layers", XVal.dict [(py!"ahbLocationLayer", layersVal l.layers)]), (py!"segment_code", scalarVal l.segmentCode),
    (py!"data_element_id", scalarVal l.dataElementId), (py!"qualifier", scalarVal l.qualifier)]) =
      [(py!"segment_code", scalarVal l.segmentCode),
    (py!"data_element_id", scalarVal l.dataElementId), (py!"qualifier", scalarVal l.qualifier)] := rfl
    rw [hf]
    simp only [replaceNil, List.map_cons, List.map_nil, clean_scalarVal]
    have hm := locationNew_matches (h.new l.layers none h.ne)
    rw [if_neg (by simp), matchArg_clean (o := l.segmentCode) rfl (by rw [trimText_code h.code]; exact hm.1),
      matchArg_clean (o := l.dataElementId) rfl (by rw [trimText_code h.de]; exact hm.2), strArg_clean (o := l.qualifier) rfl, trimText_code h.code, trimText_code h.de]
    simp only
    rw [h.new _ _ (by simpa using h.ne), trimmed_eq l h]

theorem locationVal_dict (l : AhbLocation) : IsDict (locationVal l) := ⟨_, rfl⟩

theorem locationsToXml_ok {ls : List AhbLocation} (h : ∀ l ∈ ls, GoodLocation l) :
    ∃ xs, locationsToXml ls = .ok xs ∧ (∀ x ∈ xs, x.tag = py!"ahbLocation") ∧ xs.map Xml.toValue = ls.map locationVal := by
  induction ls with
  | nil => exact ⟨[], rfl, by simp, rfl⟩
  | cons l ls ih =>
    obtain ⟨xs, h1, h2, h3⟩ := ih (fun x hx => h x (by simp [hx]))
    obtain ⟨a, t, c, h4, h5⟩ := toXmlElement_ok (h l (by simp))
    refine ⟨.elem py!"ahbLocation" a t c :: xs, ?_, ?_, ?_⟩
    · simp [locationsToXml, h1, h4, Bind.bind, Except.bind, pure, Except.pure]
    · intro x hx
      rcases List.mem_cons.1 hx with rfl | hx
      · rfl
      · exact h2 x hx
    · simp [h3, h5]

theorem locationsFromValues_ok {ls : List AhbLocation} (h : ∀ l ∈ ls, GoodLocation l) :
    locationsFromValues (ls.map locationVal) =
      if ∃ l ∈ ls, l.layers.length = 1 then .error .attributeError else .ok (ls.map AhbLocation.trimmed) := by
  induction ls with
  | nil => rfl
  | cons l ls ih =>
    simp only [List.map_cons, locationsFromValues]
    rw [location_round_trip (h l (by simp)), ih (fun x hx => h x (by simp [hx]))]
    have hiff : (∃ x ∈ l :: ls, x.layers.length = 1) ↔ l.layers.length = 1 ∨ ∃ x ∈ ls, x.layers.length = 1 := by simp
    simp only [hiff]
    by_cases h1 : l.layers.length = 1
    · simp only [h1, true_or, if_true]; rfl
    · by_cases h2 : ∃ l ∈ ls, l.layers.length = 1
      · simp only [h1, h2, or_true, if_true, if_false]; rfl
      · simp only [h1, h2, or_false, if_false]; rfl

end Verif
