import Verif.Proofs.MigExact
/-!
# Lookups in documents with several message classes (C111)
-/

namespace Verif

/-- the first steps of every query: the message class and the class of the first layer -/
def StartsWith (ref : PyStr) (q : List XStep) : Prop := ∃ position rest, q = classStep py!"/" :: classStep ref position :: rest

theorem startsWith_append {ref : PyStr} {q r : List XStep} (h : StartsWith ref q) : StartsWith ref (q ++ r) := by
  obtain ⟨p, rest, rfl⟩ := h
  exact ⟨p, rest ++ r, rfl⟩

/-- an element that is no class -/
def noClass : Xml := .elem [] [] none []

/-- the child at position `m` as it is, the other ones are replaced by an element that is no class -/
def keepOnly (m : Nat) (root : Xml) : Xml :=
  .elem root.tag root.attrib none (root.children.mapIdx fun j c => if j = m then c else noClass)

theorem keepOnly_children (m : Nat) (root : Xml) :
    (keepOnly m root).children = root.children.mapIdx fun j c => if j = m then c else noClass := rfl

theorem flatMap_filter {α β : Type} (p : α → Bool) (g : α → List β) (l : List α) :
    (l.filter p).flatMap g = (l.map fun x => if p x then g x else []).flatten := by
  induction l with
  | nil => rfl
  | cons x l ih =>
    rw [List.filter_cons]
    cases hp : p x <;> simp [hp, ih]

/-- the other messages have no class for the first layer -/
def NotElsewhere (ref : PyStr) (m : Nat) (root : Xml) : Prop :=
  ∀ (j : Nat) (other : Xml), j ≠ m → root.children[j]? = some other → IsClass py!"/" other → ∀ c ∈ other.children, ¬ IsClass ref c

theorem eval_none {ref : PyStr} {position : Option Nat} {n : XNode} (h : ∀ c ∈ n.elem.children, ¬ IsClass ref c) :
    (classStep ref position).eval n = [] := by
  have h0 : n.children.filter (classStep ref position).matches = [] := by
    rw [List.filter_eq_nil_iff]
    intro c hc hm
    obtain ⟨i, ch, h1, rfl⟩ := XNode.mem_children.1 hc
    exact h ch (List.mem_of_getElem? h1) (matches_iff.1 hm)
  unfold XStep.eval
  rw [h0]
  cases (classStep ref position).position <;> simp

theorem xpath_two {ref : PyStr} {position : Option Nat} {m : Nat} {root : Xml} (h : NotElsewhere ref m root) :
    xpath root [classStep py!"/", classStep ref position] = xpath (keepOnly m root) [classStep py!"/", classStep ref position] := by
  have key : ∀ r : Xml, xpath r [classStep py!"/", classStep ref position] =
      (((⟨[], r⟩ : XNode).children).map fun x => if (classStep py!"/").matches x then (classStep ref position).eval x else []).flatten := by
    intro r
    show (([(⟨[], r⟩ : XNode)].flatMap (classStep py!"/").eval).flatMap (classStep ref position).eval) = _
    rw [List.flatMap_singleton, eval_all rfl, flatMap_filter]
  rw [key, key]
  congr 1
  unfold XNode.children
  apply List.ext_getElem?
  intro j
  simp only [List.getElem?_map, List.getElem?_mapIdx, keepOnly_children]
  cases hc : root.children[j]? with
  | none => rfl
  | some c =>
    simp only [Option.map_some, Option.some.injEq]
    by_cases hj : j = m
    · simp [hj]
    · rw [if_neg hj]
      have hno : (classStep py!"/").matches ⟨([] : List Nat) ++ [j], noClass⟩ = false := by simp [XStep.matches, noClass, classStep, Xml.tag]
      rw [hno]
      split
      · rename_i hm
        rw [eval_none (h j c hj hc (matches_iff.1 hm))]
        rfl
      · rfl

theorem xpath_keepOnly {ref : PyStr} {m : Nat} {root : Xml} (h : NotElsewhere ref m root) {q : List XStep} (hq : StartsWith ref q) :
    xpath root q = xpath (keepOnly m root) q := by
  obtain ⟨position, rest, rfl⟩ := hq
  have key : ∀ r : Xml, xpath r (classStep py!"/" :: classStep ref position :: rest) =
      rest.foldl (fun nodes s => nodes.flatMap s.eval) (xpath r [classStep py!"/", classStep ref position]) := fun _ => rfl
  rw [key, key, xpath_two h]

theorem layerLoop_keepOnly {ref : PyStr} {m : Nat} {root : Xml} (h : NotElsewhere ref m root) (layers : List AhbLocationLayer)
    (final : List XStep) (cands : List XNode) (hf : StartsWith ref final) :
    layerLoop root final cands layers = layerLoop (keepOnly m root) final cands layers ∧
    ∀ final' cands', layerLoop root final cands layers = .ok (final', cands') → StartsWith ref final' := by
  induction layers generalizing final cands with
  | nil =>
    refine ⟨rfl, ?_⟩
    rintro _ _ ⟨⟩
    exact hf
  | cons l ls ih =>
    simp only [layerLoop]
    rw [← xpath_keepOnly h (startsWith_append hf)]
    split
    · exact ⟨rfl, fun _ _ h => by cases h⟩
    · split
      · cases hi : candidateIndexFromKey l (xpath root (final ++ [classStep (layerRef l)])) with
        | error e => exact ⟨rfl, fun _ _ h => by cases h⟩
        | ok i => exact ih _ _ (startsWith_append hf)
      · exact ih _ _ (startsWith_append hf)

theorem layerLoop_first {m : Nat} {root : Xml} {l : AhbLocationLayer} (h : NotElsewhere l.ref m root) (ls : List AhbLocationLayer)
    (cands : List XNode) :
    layerLoop root [classStep py!"/"] cands (l :: ls) = layerLoop (keepOnly m root) [classStep py!"/"] cands (l :: ls) ∧
    ∀ final' cands', layerLoop root [classStep py!"/"] cands (l :: ls) = .ok (final', cands') → StartsWith l.ref final' := by
  have hs : ∀ p, StartsWith l.ref ([classStep py!"/"] ++ [classStep (layerRef l) p]) := fun p => ⟨p, [], by rw [layerRef_eq]; rfl⟩
  simp only [layerLoop]
  rw [← xpath_keepOnly h (hs none)]
  split
  · exact ⟨rfl, fun _ _ h => by cases h⟩
  · split
    · cases hi : candidateIndexFromKey l (xpath root ([classStep py!"/"] ++ [classStep (layerRef l)])) with
      | error e => exact ⟨rfl, fun _ _ h => by cases h⟩
      | ok i => exact layerLoop_keepOnly h _ _ _ (hs _)
    · exact layerLoop_keepOnly h _ _ _ (hs _)

theorem segment_keepOnly {ref : PyStr} {m : Nat} {root : Xml} (h : NotElsewhere ref m root) {code : Option PyStr}
    {layer : Option AhbLocationLayer} {final : List XStep} {cands : List XNode} (hf : StartsWith ref final) :
    migSegmentStep root code layer final cands = migSegmentStep (keepOnly m root) code layer final cands ∧
    ∀ final' cands', migSegmentStep root code layer final cands = .ok (final', cands') → StartsWith ref final' := by
  cases code with
  | none => exact ⟨rfl, by rintro _ _ ⟨⟩; exact hf⟩
  | some c =>
    simp only [migSegmentStep]
    rw [← xpath_keepOnly h (startsWith_append hf)]
    refine ⟨rfl, ?_⟩
    intro final' cands' hr
    split at hr
    · cases hr; exact hf
    · split at hr
      · cases layer with
        | none => cases hr
        | some layer =>
          simp only [] at hr
          cases hi : firstWithKey layer.openingQualifier 0 (xpath root (final ++ [classStep c])) with
          | error e => rw [hi] at hr; cases hr
          | ok o =>
            rw [hi] at hr
            cases o with
            | none => cases hr; exact hf
            | some i => cases hr; exact startsWith_append hf
      · split at hr
        · cases hr; exact startsWith_append hf
        · cases hr; exact hf

theorem field_keepOnly {ref : PyStr} {m : Nat} {root : Xml} (h : NotElsewhere ref m root) {d q : Option PyStr}
    {final : List XStep} {cands : List XNode} (hf : StartsWith ref final) :
    fieldStep root d q final cands = fieldStep (keepOnly m root) d q final cands := by
  cases d with
  | none => rfl
  | some d =>
    simp only [fieldStep]
    rw [← xpath_keepOnly h (startsWith_append hf)]

/-- if the other messages have no class for the first layer, the lookup is the same without them -/
theorem getElement_keepOnly {m : Nat} {root : Xml} {loc : AhbLocation} {l : AhbLocationLayer} {ls : List AhbLocationLayer}
    (hl : loc.layers = l :: ls) (h : NotElsewhere l.ref m root) : getElement root loc = getElement (keepOnly m root) loc := by
  unfold getElement
  rw [hl]
  simp only []
  rw [show (keepOnly m root).tag = root.tag from rfl]
  split
  · rfl
  · have h1 := layerLoop_first h ls []
    rw [← h1.1]
    cases hr : layerLoop root [classStep py!"/"] [] (l :: ls) with
    | error e => rfl
    | ok r =>
      obtain ⟨final, cands⟩ := r
      have h2 := segment_keepOnly h (code := loc.segmentCode) (layer := (l :: ls).getLast?) (cands := cands) (h1.2 _ _ hr)
      show (do
        let (final, candidates) ← migSegmentStep root loc.segmentCode (l :: ls).getLast? final cands
        let candidates ← fieldStep root loc.dataElementId loc.qualifier final candidates
        pyOne candidates) = (do
        let (final, candidates) ← migSegmentStep (keepOnly m root) loc.segmentCode (l :: ls).getLast? final cands
        let candidates ← fieldStep (keepOnly m root) loc.dataElementId loc.qualifier final candidates
        pyOne candidates)
      rw [← h2.1]
      cases hr2 : migSegmentStep root loc.segmentCode (l :: ls).getLast? final cands with
      | error e => rfl
      | ok r =>
        obtain ⟨final', cands'⟩ := r
        show (do
          let candidates ← fieldStep root loc.dataElementId loc.qualifier final' cands'
          pyOne candidates) = (do
          let candidates ← fieldStep (keepOnly m root) loc.dataElementId loc.qualifier final' cands'
          pyOne candidates)
        rw [field_keepOnly h (h2.2 _ _ hr2)]

theorem keepOnly_only {m : Nat} {root msg : Xml} (hc : root.children[m]? = some msg) (hm : IsClass py!"/" msg) :
    OnlyChild (IsClass py!"/") (keepOnly m root) m ∧ (keepOnly m root).children[m]? = some msg := by
  have h : (keepOnly m root).children[m]? = some msg := by simp [keepOnly_children, List.getElem?_mapIdx, hc]
  refine ⟨⟨⟨msg, h, hm⟩, ?_⟩, h⟩
  intro j d hj hd
  by_contra hne
  have hj' : (root.children[j]?).map (fun _ => noClass) = some d := by
    have := hj
    simpa [keepOnly_children, List.getElem?_mapIdx, hne] using this
  cases hx : root.children[j]? with
  | none => rw [hx] at hj'; cases hj'
  | some x =>
    rw [hx] at hj'
    cases hj'
    have := hd.1
    simp [noClass, Xml.tag] at this

end Verif
