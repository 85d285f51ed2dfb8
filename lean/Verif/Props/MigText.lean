import Verif.Props.XmlText
import Verif.Proofs.Dict
import Verif.Proofs.XmlNs
/-!
# C72 MIG files as texts
-/

namespace Verif

/-- lxml's reading of a text -/
theorem readXmlLxml_iff (validUri : PyStr → Bool) {text s : PyStr} (hs : Normalised text s) (y : Xml) :
    readXmlLxml validUri text = .ok y ↔ NsDocument validUri s y := by
  rw [readXmlLxml]
  constructor
  · intro h
    cases hx : readXml text with
    | error e => rw [hx] at h; cases h
    | ok x =>
      rw [hx] at h
      have hd := (C71_documents hs x).1 hx
      change (match resolveNs validUri [] x with | none => _ | some y => _) = _ at h
      split at h
      · cases h
      · rename_i y' hy
        cases h
        exact ⟨x, hd, (resolveNs_iff validUri x (distinct_of_document hd) scopeIs_nil _).1 hy⟩
  · rintro ⟨x, hd, he⟩
    rw [(C71_documents hs x).2 hd]
    change (match resolveNs validUri [] x with | none => _ | some y => _) = _
    rw [(resolveNs_iff validUri x (distinct_of_document hd) scopeIs_nil _).2 he]

theorem readXmlLxml_error (validUri : PyStr → Bool) {text : PyStr} {e : Exc} (h : readXmlLxml validUri text = .error e) : e = .other := by
  rw [readXmlLxml, readXml] at h
  cases hp : parseXml text with
  | none => rw [hp] at h; cases h; rfl
  | some x =>
    rw [hp] at h
    change (match resolveNs validUri [] x with | none => _ | some y => _) = _ at h
    split at h
    · cases h; rfl
    · cases h

theorem nsDocument_unique {validUri : PyStr → Bool} {text s : PyStr} (hs : Normalised text s) {x y : Xml}
    (h : NsDocument validUri s x) (h' : NsDocument validUri s y) : x = y := by
  have h1 := (readXmlLxml_iff validUri hs x).2 h
  rw [(readXmlLxml_iff validUri hs y).2 h'] at h1
  cases h1
  rfl

theorem migReader_new {validUri : PyStr → Bool} {text s : PyStr} (hs : Normalised text s) {x : Xml} (h : NsDocument validUri s x) :
    MigXmlReader.new validUri text = .ok ⟨x, makeTreeNamesComparable x⟩ := by
  rw [MigXmlReader.new, (readXmlLxml_iff validUri hs x).2 h]
  rfl

theorem migReader_error {validUri : PyStr → Bool} {text s : PyStr} (hs : Normalised text s) (h : ¬ ∃ x, NsDocument validUri s x) :
    MigXmlReader.new validUri text = .error .other := by
  rw [MigXmlReader.new]
  cases hx : readXmlLxml validUri text with
  | ok x => exact absurd ⟨x, (readXmlLxml_iff validUri hs x).1 hx⟩ h
  | error e => rw [readXmlLxml_error validUri hx]; rfl

/-- **C72** the sanity check accepts exactly the XML documents (with correct namespaces) whose root is named like an EDIFACT format;
a root in a namespace has the name `{uri}local`. -/
theorem C72_check (validUri : PyStr → Bool) {text s : PyStr} (hs : Normalised text s) (formats : List PyStr) :
    checkMigText validUri formats text = .ok () ↔ ∃ x, NsDocument validUri s x ∧ x.tag ∈ formats := by
  by_cases h : ∃ x, NsDocument validUri s x
  · obtain ⟨x, hx⟩ := h
    rw [checkMigText, migReader_new hs hx]
    show (if x.tag ∈ formats then _ else _) = _ ↔ _
    constructor
    · intro h'
      split at h'
      · rename_i hm; exact ⟨x, hx, hm⟩
      · cases h'
    · rintro ⟨y, hy, hm⟩
      rw [nsDocument_unique hs hy hx] at hm
      rw [if_pos hm]
  · rw [checkMigText, migReader_error hs h]
    constructor
    · intro h'; cases h'
    · rintro ⟨x, hx, -⟩; exact absurd ⟨x, hx⟩ h

/-- **C72** otherwise the check raises: the parser's error if the text is no XML document with correct namespaces, a `ValueError` if its
root has another name. -/
theorem C72_check_errors (validUri : PyStr → Bool) {text s : PyStr} (hs : Normalised text s) (formats : List PyStr) :
    (¬ (∃ x, NsDocument validUri s x) → checkMigText validUri formats text = .error .other) ∧
    (∀ x, NsDocument validUri s x → x.tag ∉ formats → checkMigText validUri formats text = .error .valueError) := by
  constructor
  · intro h
    rw [checkMigText, migReader_error hs h]
    rfl
  · intro x hx hm
    rw [checkMigText, migReader_new hs hx]
    exact if_neg hm

/-- **C107** a document that does not use namespaces is read as it is written. -/
theorem C107_no_namespaces (validUri : PyStr → Bool) {text s : PyStr} (hs : Normalised text s) {x : Xml} (h : XmlDocument s x) (hf : NsFree x)
    (y : Xml) : NsDocument validUri s y ↔ y = x := by
  have hx : NsDocument validUri s x := ⟨x, h, (resolveNs_iff validUri x (distinct_of_document h) scopeIs_nil _).1
    (resolveNs_free validUri x (distinct_of_document h) hf)⟩
  exact ⟨fun hy => nsDocument_unique hs hy hx, fun hy => hy ▸ hx⟩

/-! ## formatting does not matter -/

theorem xml_dictGet_perm {k : PyStr} {a b : List (PyStr × PyStr)} (h : a.Perm b) (hd : (a.map Prod.fst).Nodup) :
    dictGet k a = dictGet k b := by
  have key : ∀ {l : List (PyStr × PyStr)}, (l.map Prod.fst).Nodup → ∀ v, dictGet k l = some v ↔ (k, v) ∈ l := by
    intro l
    induction l with
    | nil => simp [dictGet]
    | cons p l ih =>
      intro hn v
      obtain ⟨k', v'⟩ := p
      rw [List.map_cons, List.nodup_cons] at hn
      rw [dictGet, List.mem_cons, Prod.mk.injEq]
      split
      · rename_i hk
        subst hk
        constructor
        · intro h; cases h; exact .inl ⟨rfl, rfl⟩
        · rintro (⟨-, rfl⟩ | hm)
          · rfl
          · exact absurd (List.mem_map_of_mem (f := Prod.fst) hm) hn.1
      · rename_i hk
        rw [ih hn.2]
        constructor
        · exact .inr
        · rintro (⟨rfl, -⟩ | hm)
          · exact absurd rfl hk
          · exact hm
  have hb : (b.map Prod.fst).Nodup := (h.map Prod.fst).nodup_iff.1 hd
  apply Option.ext
  intro v
  rw [key hd, key hb, h.mem_iff]

theorem sameMig_parts {x y : Xml} (h : SameMig x y) :
    x.tag = y.tag ∧ (∀ k, dictGet k x.attrib = dictGet k y.attrib) ∧ SameMigs x.children y.children := by
  cases h with
  | mk ha hd hc => exact ⟨rfl, fun k => xml_dictGet_perm ha hd, hc⟩

/-- nodes at the same place of two documents -/
def SameNode (a b : XNode) : Prop := a.path = b.path ∧ SameMig a.elem b.elem

theorem sameMigs_forall₂ : ∀ {xs ys : List Xml}, SameMigs xs ys → List.Forall₂ SameMig xs ys
  | _, _, .nil => .nil
  | _, _, .cons h hs => .cons h (sameMigs_forall₂ hs)

theorem mapIdx_same {xs ys : List Xml} (h : List.Forall₂ SameMig xs ys) (p : List Nat) :
    ∀ k, List.Forall₂ SameNode (xs.mapIdx fun i c => (⟨p ++ [k + i], c⟩ : XNode)) (ys.mapIdx fun i c => ⟨p ++ [k + i], c⟩) := by
  induction h with
  | nil => intro k; exact .nil
  | cons h hs ih =>
    intro k
    rw [List.mapIdx_cons, List.mapIdx_cons]
    refine .cons ⟨rfl, h⟩ ?_
    simpa [Nat.add_assoc, Nat.add_comm 1] using ih (k + 1)

theorem children_same {a b : XNode} (h : SameNode a b) : List.Forall₂ SameNode a.children b.children := by
  have := mapIdx_same (sameMigs_forall₂ (sameMig_parts h.2).2.2) a.path 0
  unfold XNode.children
  rw [← h.1]
  simpa using this

theorem matches_same {a b : XNode} (h : SameNode a b) (s : XStep) : s.matches a = s.matches b := by
  obtain ⟨h1, h2, -⟩ := sameMig_parts h.2
  rw [XStep.matches, XStep.matches, h1, h2]

theorem filter_same {as bs : List XNode} (h : List.Forall₂ SameNode as bs) (s : XStep) :
    List.Forall₂ SameNode (as.filter s.matches) (bs.filter s.matches) := by
  induction h with
  | nil => exact .nil
  | cons h hs ih =>
    rw [List.filter_cons, List.filter_cons, matches_same h s]
    split
    · exact .cons h ih
    · exact ih

theorem drop_same {as bs : List XNode} (h : List.Forall₂ SameNode as bs) : ∀ n, List.Forall₂ SameNode (as.drop n) (bs.drop n) := by
  induction h with
  | nil => intro n; simp
  | cons h hs ih =>
    intro n
    cases n with
    | zero => exact .cons h hs
    | succ n => exact ih n

theorem take_same {as bs : List XNode} (h : List.Forall₂ SameNode as bs) : ∀ n, List.Forall₂ SameNode (as.take n) (bs.take n) := by
  induction h with
  | nil => intro n; simp
  | cons h hs ih =>
    intro n
    cases n with
    | zero => exact .nil
    | succ n => exact .cons h (ih n)

theorem eval_same {a b : XNode} (h : SameNode a b) (s : XStep) : List.Forall₂ SameNode (s.eval a) (s.eval b) := by
  unfold XStep.eval
  have := filter_same (children_same h) s
  cases s.position with
  | none => exact this
  | some k => exact take_same (drop_same this _) 1

theorem append_same {as bs cs ds : List XNode} (h : List.Forall₂ SameNode as bs) (h' : List.Forall₂ SameNode cs ds) :
    List.Forall₂ SameNode (as ++ cs) (bs ++ ds) := by
  induction h with
  | nil => exact h'
  | cons h hs ih => exact .cons h ih

theorem xpath_same {x y : Xml} (h : SameMig x y) (steps : List XStep) : List.Forall₂ SameNode (xpath x steps) (xpath y steps) := by
  unfold xpath
  have key : ∀ {as bs : List XNode}, List.Forall₂ SameNode as bs →
      List.Forall₂ SameNode (steps.foldl (fun nodes s => nodes.flatMap s.eval) as) (steps.foldl (fun nodes s => nodes.flatMap s.eval) bs) := by
    induction steps with
    | nil => intro as bs h; exact h
    | cons s steps ih =>
      intro as bs h
      refine ih ?_
      induction h with
      | nil => exact .nil
      | cons h hs ih' =>
        simp only [List.flatMap_cons]
        exact append_same (eval_same h s) ih'
  exact key (.cons ⟨rfl, h⟩ .nil)

theorem hasQualifier_same {a b : XNode} (h : SameNode a b) (key : PyStr) (q : Option PyStr) : hasQualifier key q a = hasQualifier key q b := by
  rw [hasQualifier, hasQualifier, getNestedQualifiers, getNestedQualifiers, (sameMig_parts h.2).2.1]

theorem possibleResults_same {as bs : List XNode} (h : List.Forall₂ SameNode as bs) (q : Option PyStr) :
    ∀ i, possibleResults q i as = possibleResults q i bs := by
  induction h with
  | nil => intro i; rfl
  | cons h hs ih => intro i; rw [possibleResults, possibleResults, hasQualifier_same h, ih]

theorem firstWithKey_same {as bs : List XNode} (h : List.Forall₂ SameNode as bs) (q : Option PyStr) :
    ∀ i, firstWithKey q i as = firstWithKey q i bs := by
  induction h with
  | nil => intro i; rfl
  | cons h hs ih => intro i; rw [firstWithKey, firstWithKey, hasQualifier_same h, ih]

theorem noFurther_same {as bs : List XNode} (h : List.Forall₂ SameNode as bs) (q : Option PyStr) :
    ∀ i, noFurther q i as = noFurther q i bs := by
  induction h with
  | nil => intro i; rfl
  | cons h hs ih => intro i; rw [noFurther, noFurther, hasQualifier_same h, ih]

theorem oneWithRef_same {as bs : List XNode} (h : List.Forall₂ SameNode as bs) (q : Option PyStr) :
    ∀ i, oneWithRef q i as = oneWithRef q i bs := by
  induction h with
  | nil => intro i; rfl
  | cons h hs ih => intro i; rw [oneWithRef, oneWithRef, hasQualifier_same h, ih, noFurther_same hs]

/-- the same error or corresponding results -/
def SameRes {α β : Type} (R : α → β → Prop) (x : PyRes α) (y : PyRes β) : Prop :=
  (∃ e, x = .error e ∧ y = .error e) ∨ ∃ a b, x = .ok a ∧ y = .ok b ∧ R a b

theorem SameRes.refl {α : Type} (x : PyRes α) : SameRes Eq x x := by
  cases x with
  | error e => exact .inl ⟨e, rfl, rfl⟩
  | ok a => exact .inr ⟨a, a, rfl, rfl, rfl⟩

theorem SameRes.bind {α β γ δ : Type} {R : α → β → Prop} {S : γ → δ → Prop} {x : PyRes α} {y : PyRes β} {f : α → PyRes γ} {g : β → PyRes δ}
    (h : SameRes R x y) (hf : ∀ a b, R a b → SameRes S (f a) (g b)) : SameRes S (x >>= f) (y >>= g) := by
  rcases h with ⟨e, rfl, rfl⟩ | ⟨a, b, rfl, rfl, hr⟩
  · exact .inl ⟨e, rfl, rfl⟩
  · exact hf a b hr

theorem SameRes.error {α β : Type} {R : α → β → Prop} (e : Exc) : SameRes R (.error e : PyRes α) (.error e : PyRes β) := .inl ⟨e, rfl, rfl⟩

theorem SameRes.ok {α β : Type} {R : α → β → Prop} {a : α} {b : β} (h : R a b) : SameRes R (.ok a) (.ok b) := .inr ⟨a, b, rfl, rfl, h⟩

/-- the same query and corresponding candidates -/
def SameSearch (a b : List XStep × List XNode) : Prop := a.1 = b.1 ∧ List.Forall₂ SameNode a.2 b.2

theorem layerLoop_same {x y : Xml} (h : SameMig x y) (layers : List AhbLocationLayer) : ∀ (final : List XStep) {as bs : List XNode},
    List.Forall₂ SameNode as bs → SameRes SameSearch (layerLoop x final as layers) (layerLoop y final bs layers) := by
  induction layers with
  | nil => intro final as bs hab; exact .ok ⟨rfl, hab⟩
  | cons l ls ih =>
    intro final as bs hab
    rw [layerLoop, layerLoop]
    have hx := xpath_same h (final ++ [classStep (layerRef l)])
    simp only [hx.length_eq]
    split
    · exact .error _
    split
    · refine SameRes.bind (R := Eq) ?_ ?_
      · rw [candidateIndexFromKey, candidateIndexFromKey, possibleResults_same hx]
        exact .refl _
      · rintro i _ rfl
        exact ih _ (take_same (drop_same hx i) 1)
    · exact ih _ hx

theorem migSegmentStep_same {x y : Xml} (h : SameMig x y) (code : Option PyStr) (layer : Option AhbLocationLayer) (final : List XStep)
    {as bs : List XNode} (hab : List.Forall₂ SameNode as bs) :
    SameRes SameSearch (migSegmentStep x code layer final as) (migSegmentStep y code layer final bs) := by
  unfold migSegmentStep
  cases code with
  | none => exact .ok ⟨rfl, hab⟩
  | some code =>
    have hx := xpath_same h (final ++ [classStep code])
    simp only [hx.length_eq]
    split
    · exact .ok ⟨rfl, hab⟩
    split
    · cases layer with
      | none => exact .error _
      | some layer =>
        refine SameRes.bind (R := Eq) ?_ ?_
        · rw [firstWithKey_same hx]; exact .refl _
        · rintro i _ rfl
          cases i with
          | none => exact .ok ⟨rfl, hab⟩
          | some i => exact .ok ⟨rfl, hx⟩
    split
    · exact .ok ⟨rfl, hab⟩
    · exact .ok ⟨rfl, hab⟩

theorem fieldStep_same {x y : Xml} (h : SameMig x y) (d q : Option PyStr) (final : List XStep) {as bs : List XNode}
    (hab : List.Forall₂ SameNode as bs) : SameRes (List.Forall₂ SameNode) (fieldStep x d q final as) (fieldStep y d q final bs) := by
  unfold fieldStep
  cases d with
  | none => exact .ok hab
  | some d =>
    have hx := xpath_same h (final ++ [{ tag := py!"field", attr := py!"meta.id", value := d }])
    simp only [hx.length_eq]
    split
    · exact .error _
    split
    · cases q with
      | none => exact .error _
      | some q =>
        refine SameRes.bind (R := Eq) ?_ ?_
        · rw [oneWithRef_same hx]; exact .refl _
        · rintro i _ rfl
          exact .ok (take_same (drop_same hx i) 1)
    · exact .ok hx

theorem getElement_same {x y : Xml} (h : SameMig x y) (l : AhbLocation) : SameRes SameNode (getElement x l) (getElement y l) := by
  unfold getElement
  cases l.layers with
  | nil => exact .error _
  | cons l0 ls =>
    dsimp only
    rw [(sameMig_parts h).1]
    split
    · exact .error _
    refine SameRes.bind (layerLoop_same h (l0 :: ls) _ .nil) ?_
    rintro ⟨f1, c1⟩ ⟨f2, c2⟩ ⟨rfl, hc⟩
    refine SameRes.bind (migSegmentStep_same h _ _ _ hc) ?_
    rintro ⟨f1, c1⟩ ⟨f2, c2⟩ ⟨rfl, hc⟩
    refine SameRes.bind (fieldStep_same h _ _ _ hc) ?_
    intro as bs hab
    unfold pyOne
    cases hab with
    | nil => exact .error _
    | cons h1 h2 =>
      cases h2 with
      | nil => exact .ok h1
      | cons _ _ => exact .error _

theorem stackLoop_same (path : List Nat) : ∀ {x y : Xml}, SameMig x y → ∀ name, stackLoop name x path = stackLoop name y path := by
  induction path with
  | nil => intros; rfl
  | cons i path ih =>
    intro x y h name
    rw [stackLoop, stackLoop]
    have hc := sameMigs_forall₂ (sameMig_parts h).2.2
    have hi : (x.children[i]? = none ∧ y.children[i]? = none) ∨
        ∃ a b, x.children[i]? = some a ∧ y.children[i]? = some b ∧ SameMig a b := by
      by_cases hlt : i < x.children.length
      · have hlt' : i < y.children.length := hc.length_eq ▸ hlt
        exact .inr ⟨_, _, List.getElem?_eq_getElem hlt, List.getElem?_eq_getElem hlt', hc.get hlt hlt'⟩
      · have hlt' : ¬ i < y.children.length := hc.length_eq ▸ hlt
        exact .inl ⟨List.getElem?_eq_none (by omega), List.getElem?_eq_none (by omega)⟩
    rcases hi with ⟨h1, h2⟩ | ⟨a, b, h1, h2, hab⟩
    · rw [h1, h2]
    · rw [h1, h2]
      obtain ⟨ht, ha, -⟩ := sameMig_parts hab
      simp only [ht, ha, ih hab]

/-- **C72** comments, indentation, other texts, quotes, the order of the attributes and the prefixes of namespaces in a MIG file do not
matter: two documents that agree otherwise give the same stacks (or the same errors) for every location. -/
theorem C72_formatting (validUri : PyStr → Bool) {text text' s s' : PyStr} (hs : Normalised text s) (hs' : Normalised text' s') {x y : Xml}
    (h : NsDocument validUri s x) (h' : NsDocument validUri s' y) (hxy : SameMig x y) (l : AhbLocation) :
    stackFromText validUri text l = stackFromText validUri text' l := by
  rw [stackFromText, stackFromText, migReader_new hs h, migReader_new hs' h']
  show getEdifactStack x l = getEdifactStack y l
  unfold getEdifactStack
  rcases getElement_same hxy l with ⟨e, h1, h2⟩ | ⟨a, b, h1, h2, hp, -⟩
  · rw [h1, h2]; rfl
  · rw [h1, h2]
    show elementToEdifactStack x a.path = elementToEdifactStack y b.path
    rw [elementToEdifactStack, elementToEdifactStack, hp, stackLoop_same _ hxy]

/-- **C72** the stacks of a MIG file are those of its root element, to which C48 to C50 apply; there is none for a text that
is no XML document. -/
theorem C72_lookup (validUri : PyStr → Bool) {text s : PyStr} (hs : Normalised text s) (l : AhbLocation) :
    (∀ x, NsDocument validUri s x → stackFromText validUri text l = getEdifactStack x l) ∧
    (¬ (∃ x, NsDocument validUri s x) → stackFromText validUri text l = .error .other) := by
  constructor
  · intro x hx
    rw [stackFromText, migReader_new hs hx]
    rfl
  · intro h
    rw [stackFromText, migReader_error hs h]
    rfl

/-! ## C74 helpers for elements -/

/-- **C74** the segment group key of an element is its attribute `ref` if this begins with "SG", else nothing; its AHB name is
its attribute `ahbName`. -/
theorem C74_helpers (e : Xml) (hd : (e.attrib.map Prod.fst).Nodup) (k : PyStr) :
    (getSegmentGroupKeyOrNone e = some k ↔ (py!"ref", k) ∈ e.attrib ∧ ∃ rest, k = py!"SG" ++ rest) ∧
    (getAhbNameOrNone e = some k ↔ (py!"ahbName", k) ∈ e.attrib) := by
  have hg : ∀ key v, dictGet key e.attrib = some v ↔ (key, v) ∈ e.attrib := fun key v => dictGet_eq_some hd
  constructor
  · unfold getSegmentGroupKeyOrNone
    rw [← hg]
    cases dictGet py!"ref" e.attrib with
    | none => simp
    | some r =>
      simp only [Option.some.injEq]
      split
      · rename_i h
        rw [List.isPrefixOf_iff_prefix] at h
        obtain ⟨rest, hr⟩ := h
        constructor
        · rintro h; cases h; exact ⟨rfl, rest, hr.symm⟩
        · rintro ⟨rfl, -⟩; rfl
      · rename_i h
        constructor
        · intro h'; cases h'
        · rintro ⟨rfl, rest, hr⟩
          exact absurd (List.isPrefixOf_iff_prefix.2 ⟨rest, hr.symm⟩) h
  · exact hg _ _

example : getSegmentGroupKeyOrNone (.elem py!"class" [(py!"ref", py!"SG4")] none []) = some py!"SG4" ∧
    getSegmentGroupKeyOrNone (.elem py!"class" [(py!"ref", py!"UNH")] none []) = none := by decide

/-- URIs without blanks are accepted -/
def exUri (u : PyStr) : Bool := !u.contains ' '

/-- a small MIG: XML declaration, comment, both kinds of quotes, indentation, a character reference -/
def exMigText : PyStr :=
  py!"<?xml version=\"1.0\" encoding=\"utf-8\"?>\r\n<!-- generated -->\r\n<UTILMD>\r\n  <class name=\"Dokument\" ref='/'>\r\n    <class name=\"Kopfsegment\" ref='UNH'>\r\n      <field name=\"Referenz &#38; Nummer\" meta.id=\"0062\"/>\r\n    </class>\r\n  </class>\r\n</UTILMD>\r\n"

/-- the same MIG in one line, with attributes in another order -/
def exMigLine : PyStr :=
  py!"<UTILMD><class ref=\"/\" name=\"Dokument\"><class ref=\"UNH\" name=\"Kopfsegment\"><field meta.id=\"0062\" name=\"Referenz &amp; Nummer\"></field></class></class></UTILMD>"

def exMigTextRoot : Xml :=
  .elem py!"UTILMD" [] (some py!"\n  \n") [.elem py!"class" [(py!"name", py!"Dokument"), (py!"ref", py!"/")] (some py!"\n    \n  ")
    [.elem py!"class" [(py!"name", py!"Kopfsegment"), (py!"ref", py!"UNH")] (some py!"\n      \n    ")
      [.elem py!"field" [(py!"name", py!"Referenz & Nummer"), (py!"meta.id", py!"0062")] none []]]]

def exMigLineRoot : Xml :=
  .elem py!"UTILMD" [] none [.elem py!"class" [(py!"ref", py!"/"), (py!"name", py!"Dokument")] none
    [.elem py!"class" [(py!"ref", py!"UNH"), (py!"name", py!"Kopfsegment")] none
      [.elem py!"field" [(py!"meta.id", py!"0062"), (py!"name", py!"Referenz & Nummer")] none []]]]

def exMigTextLocation : AhbLocation :=
  { layers := [⟨none, py!"UNH", none⟩], segmentCode := some py!"UNH", dataElementId := some py!"0062" }

example : checkMigText exUri [py!"MSCONS", py!"UTILMD"] exMigText = .ok () := by decide +kernel
example : checkMigText exUri [py!"MSCONS"] exMigText = .error .valueError := by decide +kernel
example : checkMigText exUri [py!"UTILMD"] py!"<UTILMD>" = .error .other := by decide +kernel

/-- the hypotheses of the theorems are met -/
theorem exMig_documents : XmlDocument (universalNewlines exMigText) exMigTextRoot ∧ XmlDocument (universalNewlines exMigLine) exMigLineRoot :=
  ⟨(xmlDocument_iff _ _).1 (by decide +kernel), (xmlDocument_iff _ _).1 (by decide +kernel)⟩

theorem exMig_normalised : Normalised exMigText (universalNewlines exMigText) ∧ Normalised exMigLine (universalNewlines exMigLine) :=
  ⟨.inl ⟨rfl, by decide⟩, .inl ⟨rfl, by decide⟩⟩

theorem exMig_nsDocuments : NsDocument exUri (universalNewlines exMigText) exMigTextRoot ∧
    NsDocument exUri (universalNewlines exMigLine) exMigLineRoot :=
  ⟨(readXmlLxml_iff exUri exMig_normalised.1 _).1 (by decide +kernel), (readXmlLxml_iff exUri exMig_normalised.2 _).1 (by decide +kernel)⟩

theorem exMig_same : SameMig exMigTextRoot exMigLineRoot :=
  .mk (by decide) (by decide) (.cons (.mk (by decide) (by decide) (.cons (.mk (by decide) (by decide) (.cons (.mk (by decide) (by decide) .nil)
    .nil)) .nil)) .nil)

example : stackFromText exUri exMigText exMigTextLocation = stackFromText exUri exMigLine exMigTextLocation :=
  C72_formatting exUri exMig_normalised.1 exMig_normalised.2 exMig_nsDocuments.1 exMig_nsDocuments.2 exMig_same _

example : stackFromText exUri exMigText exMigTextLocation = .ok { levels := [{ name := py!"Dokument", isGroupable := true },
    { name := py!"Kopfsegment", isGroupable := true }, { name := py!"Referenz & Nummer", isGroupable := false }] } := by decide +kernel

end Verif
