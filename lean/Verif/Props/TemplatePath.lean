import Verif.Proofs.TemplatePath
import Verif.Proofs.Requirements
import Verif.Proofs.DeepOps
/-!
# C101: the discriminators of a deep AHB lead to the template
-/

namespace Verif

/-- **C101 (data elements)** the discriminator of a data element is the JSON path to a field of the template with the id of the data element;
the elements on the way are classes, the first of which is the document. -/
theorem C101_data_elements {root : Xml} {posStr : AhbLocation → PyStr} {flat flat' : FlatAhb} {sgh : Sgh} {deep : DeepAhb}
    (h : toDeepAhb (migLookup root) posStr flat sgh = .ok (flat', deep)) {de : DataElement} (hde : DataElementOccurs deep.lines de)
    {d : PyStr} (hd : de.discriminator = some d) :
    ∃ path document classes field, LeadsTo root d path (document :: classes ++ [field]) ∧ IsClass py!"/" document ∧
      (∀ e ∈ classes, e.tag = py!"class") ∧ IsField de.dataElementId field := by
  obtain ⟨located, hl, hdoc, _⟩ := toDeepAhb_facts h
  rw [← mem_documentOrder_dataElement, hdoc] at hde
  obtain ⟨r, hr, used, hm⟩ := createdItems_run _ _ hde
  obtain ⟨_, first, rest, id, hlines, hid, _, hdisc, hid', _⟩ := merge_ok (created_dataElement hm)
  rw [hd] at hdisc
  cases hs : r.stack (migLookup root) with
  | none => rw [hs] at hdisc; cases hdisc
  | some st =>
    rw [hs] at hdisc
    cases hdisc
    obtain ⟨loc, hloc, hwhere⟩ := run_stack_some hs
    obtain ⟨path, msg, classes, tail, h1, h2, h3, _, h5⟩ := location_leadsTo hloc
    obtain ⟨_, _, _, _, hsame, _⟩ := run_slice hl r hr
    have hlid : loc.dataElementId = some de.dataElementId := by
      rw [(run_location_eq hr hwhere).2, ← hsame first (by rw [hlines]; simp), hid, hid']
    obtain ⟨seg, field, rfl, h6, h7⟩ := h5 _ hlid
    refine ⟨path, msg, classes ++ seg, field, by simpa using h1, h2, fun e he => ?_, h6⟩
    rcases List.mem_append.1 he with he | he
    · exact classes_tag h3 e he
    · exact h7 e he

/-- **C101 (data elements without discriminator)** if a data element has no discriminator, the template does not single out an element for
the location of one of its lines. -/
theorem C101_no_discriminator {root : Xml} {posStr : AhbLocation → PyStr} {flat flat' : FlatAhb} {sgh : Sgh} {deep : DeepAhb}
    (h : toDeepAhb (migLookup root) posStr flat sgh = .ok (flat', deep)) {de : DataElement} (hde : DataElementOccurs deep.lines de)
    (hd : de.discriminator = none) :
    ∃ line loc, line.dataElement = some de.dataElementId ∧ LocatedAt sgh flat line loc ∧ NotInTemplate root loc := by
  obtain ⟨located, hl, hdoc, _⟩ := toDeepAhb_facts h
  rw [← mem_documentOrder_dataElement, hdoc] at hde
  obtain ⟨r, hr, used, hm⟩ := createdItems_run _ _ hde
  obtain ⟨_, first, rest, id, hlines, hid, _, hdisc, hid', _⟩ := merge_ok (created_dataElement hm)
  rw [hd] at hdisc
  cases hs : r.stack (migLookup root) with
  | some st => rw [hs] at hdisc; cases hdisc
  | none =>
    obtain ⟨_, _, _, _, hsame, _⟩ := run_slice hl r hr
    obtain ⟨line, hline, hloc⟩ := run_located hl hr (.inl rfl)
    refine ⟨line, r.location, ?_, hloc, run_stack_none hs⟩
    rw [hsame line hline, ← hsame first (by rw [hlines]; simp), hid, hid']

/-- **C101 (groups)** every segment group has been opened by a line of the flat AHB, whose index and expression it has, and has as discriminator
the JSON path to a class of the template for the segment group key of this line; all elements on the way are classes. -/
theorem C101_groups {root : Xml} {posStr : AhbLocation → PyStr} {flat flat' : FlatAhb} {sgh : Sgh} {deep : DeepAhb}
    (h : toDeepAhb (migLookup root) posStr flat sgh = .ok (flat', deep)) {g : SegmentGroup} (hg : GroupOccurs deep.lines g) :
    ∃ line ∈ flat.lines, g.ahbLineIndex = line.index ∧ (∃ e, line.ahbExpression = some e ∧ g.ahbExpression = trim e) ∧
      ∃ d path document classes class_, g.discriminator = some d ∧ LeadsTo root d path (document :: classes ++ [class_]) ∧
        IsClass py!"/" document ∧ (∀ e ∈ classes, e.tag = py!"class") ∧ IsClass (groupRef line.segmentGroupKey) class_ := by
  obtain ⟨located, hl, hdoc, _⟩ := toDeepAhb_facts h
  have hx : g.header ∈ documentOrder deep.lines := (mem_documentOrder_iff _ _).2 ⟨g, hg, .inl rfl⟩
  rw [hdoc] at hx
  obtain ⟨r, hr, used, hm⟩ := createdItems_run _ _ hx
  obtain ⟨hnd, first, layer, st, h1, h2, h3, h4, h5, h6, h7⟩ := created_group hm
  obtain ⟨pre, post, hlines, _, hsame, _⟩ := run_slice hl r hr
  have hfirst : first ∈ r.lines := List.mem_of_head? h1
  refine ⟨first, by rw [hlines]; simp [hfirst], h6, h7, ?_⟩
  obtain ⟨loc, hloc, hwhere⟩ := run_stack_some h3
  obtain ⟨path, msg, classes, tail, a1, a2, a3, a4, _⟩ := location_leadsTo hloc
  have hlid : loc.dataElementId = none := by
    rw [(run_location_eq hr hwhere).2, ← hsame first hfirst]
    cases hf : first.dataElement with
    | none => rfl
    | some x =>
      unfold Run.hasDataElement at hnd
      rw [List.any_eq_false] at hnd
      exact absurd (by rw [hf]; rfl) (hnd first hfirst)
  have ht := a4 hlid
  subst ht
  have hlay : loc.layers = r.location.layers := by
    rw [(run_location_eq hr hwhere).1, (run_location_eq hr (.inl rfl)).1]
  rw [hlay] at a3
  obtain ⟨init, hinit⟩ : ∃ init, r.location.layers = init ++ [layer] := by
    obtain ⟨init, hi⟩ := List.getLast?_eq_some_iff.1 h2
    exact ⟨init, hi⟩
  rw [hinit] at a3
  obtain ⟨cs, c, hc, hb1, hb2⟩ : ∃ cs c, classes = cs ++ [c] ∧ List.Forall₂ (fun (l : AhbLocationLayer) e => IsClass l.ref e) init cs ∧
      IsClass layer.ref c := by
    rcases List.eq_nil_or_concat classes with rfl | ⟨cs, c, rfl⟩
    · have := a3.length_eq
      simp at this
    · rw [List.concat_eq_append] at a3 ⊢
      have hlen : init.length = cs.length := by have := a3.length_eq; simpa using this
      have ht := List.forall₂_take init.length a3
      have hdr := List.forall₂_drop init.length a3
      rw [List.take_left, hlen, List.take_left] at ht
      rw [List.drop_left, hlen, List.drop_left] at hdr
      cases hdr with
      | cons hh _ => exact ⟨cs, c, rfl, ht, hh⟩
  subst hc
  refine ⟨_, path, msg, cs, c, h5, by simpa using a1, a2, classes_tag hb1, ?_⟩
  have : layer.ref = groupRef first.segmentGroupKey := by
    rw [h4]
    unfold AhbLocationLayer.ref groupRef
    cases layer.segmentGroupKey with
    | none => rfl
    | some s => cases s <;> rfl
  rw [← this]
  exact hb2

/-- **C101 (segments)** every segment has a discriminator: the JSON path to a class of the template, or, if the template does not single out a
class, the printed location. -/
theorem C101_segments {root : Xml} {posStr : AhbLocation → PyStr} {flat flat' : FlatAhb} {sgh : Sgh} {deep : DeepAhb}
    (h : toDeepAhb (migLookup root) posStr flat sgh = .ok (flat', deep)) {s : Segment} (hs : SegmentOccurs deep.lines s) :
    ∃ d, s.discriminator = some d ∧
      ((∃ path document classes, LeadsTo root d path (document :: classes) ∧ IsClass py!"/" document ∧ (∀ e ∈ classes, e.tag = py!"class")) ∨
        ∃ line loc, line.dataElement = none ∧ d = posStr loc ∧ LocatedAt sgh flat line loc ∧ NotInTemplate root loc) := by
  obtain ⟨located, hl, hdoc, _⟩ := toDeepAhb_facts h
  obtain ⟨g, hg, hsg⟩ := hs
  have hx : s.header ∈ documentOrder deep.lines := (mem_documentOrder_iff _ _).2 ⟨g, hg, .inr ⟨s, hsg, by simp [Segment.docItems]⟩⟩
  rw [hdoc] at hx
  obtain ⟨r, hr, used, hm⟩ := createdItems_run _ _ hx
  obtain ⟨hnd, hd⟩ := created_segment hm
  refine ⟨_, hd, ?_⟩
  obtain ⟨pre, post, hlines, hne, hsame, _⟩ := run_slice hl r hr
  have hlid : ∀ loc, (loc = r.location ∨ ∃ x ∈ r.2, loc = x.2) → loc.dataElementId = none := by
    intro loc hwhere
    obtain ⟨first, hfirst⟩ := List.exists_mem_of_ne_nil _ hne
    rw [(run_location_eq hr hwhere).2, ← hsame first hfirst]
    cases hf : first.dataElement with
    | none => rfl
    | some x =>
      unfold Run.hasDataElement at hnd
      rw [List.any_eq_false] at hnd
      exact absurd (by rw [hf]; rfl) (hnd first hfirst)
  cases hst : r.stack (migLookup root) with
  | none =>
    obtain ⟨line, hline, hloc⟩ := run_located hl hr (.inl rfl)
    refine .inr ⟨line, r.location, ?_, rfl, hloc, run_stack_none hst⟩
    rw [hsame line hline, ← (run_location_eq hr (.inl rfl)).2]
    exact hlid _ (.inl rfl)
  | some st =>
    obtain ⟨loc, hloc, hwhere⟩ := run_stack_some hst
    obtain ⟨path, msg, classes, tail, a1, a2, a3, a4, _⟩ := location_leadsTo hloc
    have ht := a4 (hlid loc hwhere)
    subst ht
    exact .inl ⟨path, msg, classes, by simpa using a1, a2, classes_tag a3⟩

/-- **C101 (the right field)** if the template has one document class, the field is the one which the location of a line of the data element
singles out: the layers of the location lead through the classes for their groups whose keys mention their qualifiers, and among several fields
with the id the one whose reference mentions the qualifier is taken. -/
theorem C101_data_elements_found {root document : Xml} {m : Nat} (hm : OnlyChild (IsClass py!"/") root m)
    (hc : root.children[m]? = some document) {posStr : AhbLocation → PyStr} {flat flat' : FlatAhb} {sgh : Sgh} {deep : DeepAhb}
    (h : toDeepAhb (migLookup root) posStr flat sgh = .ok (flat', deep)) {de : DataElement} (hde : DataElementOccurs deep.lines de)
    {d : PyStr} (hd : de.discriminator = some d) :
    ∃ line loc path es field, line ∈ flat.lines ∧ line.dataElement = some de.dataElementId ∧ LocatedAt sgh flat line loc ∧
      LeadsTo root d (m :: path) (es ++ [field]) ∧ Found document loc path field := by
  obtain ⟨located, hl, hdoc, _⟩ := toDeepAhb_facts h
  rw [← mem_documentOrder_dataElement, hdoc] at hde
  obtain ⟨r, hr, used, hm'⟩ := createdItems_run _ _ hde
  obtain ⟨_, first, rest, id, hlines, hid, _, hdisc, hid', _⟩ := merge_ok (created_dataElement hm')
  rw [hd] at hdisc
  cases hs : r.stack (migLookup root) with
  | none => rw [hs] at hdisc; cases hdisc
  | some st =>
    rw [hs] at hdisc
    cases hdisc
    obtain ⟨loc, hloc, hwhere⟩ := run_stack_some hs
    obtain ⟨line, hline, hat⟩ := run_located hl hr hwhere
    obtain ⟨path, es, field, h1, h2⟩ := location_found hm hc hloc
    obtain ⟨pre, post, hfl, _, hsame, _⟩ := run_slice hl r hr
    refine ⟨line, loc, path, es, field, by rw [hfl]; simp [hline], ?_, hat, h1, h2⟩
    rw [hsame line hline, ← hsame first (by rw [hlines]; simp), hid, hid']

/-- **C101 (the right class)** the same for segment groups: the class is the one which the location of a line of the run that opens the group
singles out. -/
theorem C101_groups_found {root document : Xml} {m : Nat} (hm : OnlyChild (IsClass py!"/") root m)
    (hc : root.children[m]? = some document) {posStr : AhbLocation → PyStr} {flat flat' : FlatAhb} {sgh : Sgh} {deep : DeepAhb}
    (h : toDeepAhb (migLookup root) posStr flat sgh = .ok (flat', deep)) {g : SegmentGroup} (hg : GroupOccurs deep.lines g) :
    ∃ line loc layer d path es class_, line ∈ flat.lines ∧ g.ahbLineIndex = line.index ∧ (∃ own, LocatedAt sgh flat own loc) ∧
      loc.dataElementId = none ∧ loc.layers.getLast? = some layer ∧ layer.segmentGroupKey = line.segmentGroupKey ∧
      g.discriminator = some d ∧ LeadsTo root d (m :: path) (es ++ [class_]) ∧ Found document loc path class_ := by
  obtain ⟨located, hl, hdoc, _⟩ := toDeepAhb_facts h
  have hx : g.header ∈ documentOrder deep.lines := (mem_documentOrder_iff _ _).2 ⟨g, hg, .inl rfl⟩
  rw [hdoc] at hx
  obtain ⟨r, hr, used, hm'⟩ := createdItems_run _ _ hx
  obtain ⟨hnd, first, layer, st, h1, h2, h3, h4, h5, h6, h7⟩ := created_group hm'
  obtain ⟨pre, post, hlines, _, hsame, _⟩ := run_slice hl r hr
  have hfirst : first ∈ r.lines := List.mem_of_head? h1
  obtain ⟨loc, hloc, hwhere⟩ := run_stack_some h3
  obtain ⟨own, _, hat⟩ := run_located hl hr hwhere
  obtain ⟨path, es, class_, a1, a2⟩ := location_found hm hc hloc
  refine ⟨first, loc, layer, _, path, es, class_, by rw [hlines]; simp [hfirst], h6, ⟨own, hat⟩, ?_, ?_, h4.symm, h5, a1, a2⟩
  · rw [(run_location_eq hr hwhere).2, ← hsame first hfirst]
    cases hf : first.dataElement with
    | none => rfl
    | some x =>
      unfold Run.hasDataElement at hnd
      rw [List.any_eq_false] at hnd
      exact absurd (by rw [hf]; rfl) (hnd first hfirst)
  · rw [(run_location_eq hr hwhere).1, ← (run_location_eq hr (.inl rfl)).1, h2]

/-- **C101 (unambiguous)** if the names of the template tell its elements apart, a JSON path leads to one element only. -/
theorem C101_unambiguous {root : Xml} (hroot : DistinctNames root) {d : PyStr} {p q : List Nat} {es fs : List Xml}
    (hp : LeadsTo root d p es) (hq : LeadsTo root d q fs) : p = q ∧ es = fs := by
  have h := leadsTo_unique hroot hp hq
  subst h
  exact ⟨rfl, Option.some.inj (hp.1.symm.trans hq.1)⟩

/-- **C101** then data elements with the same discriminator have the same id, even in different AHBs of the same template. -/
theorem C101_same_discriminator {root : Xml} (hroot : DistinctNames root) {posStr posStr' : AhbLocation → PyStr} {flat₁ flat₁' flat₂ flat₂' : FlatAhb}
    {sgh₁ sgh₂ : Sgh} {deep₁ deep₂ : DeepAhb} (h₁ : toDeepAhb (migLookup root) posStr flat₁ sgh₁ = .ok (flat₁', deep₁))
    (h₂ : toDeepAhb (migLookup root) posStr' flat₂ sgh₂ = .ok (flat₂', deep₂)) {a b : DataElement} (ha : DataElementOccurs deep₁.lines a)
    (hb : DataElementOccurs deep₂.lines b) (hd : a.discriminator ≠ none) (hab : a.discriminator = b.discriminator) :
    a.dataElementId = b.dataElementId := by
  obtain ⟨d, hd⟩ := Option.ne_none_iff_exists'.1 hd
  obtain ⟨p, m, cs, f, l1, _, _, f1⟩ := C101_data_elements h₁ ha hd
  obtain ⟨q, m', cs', f', l2, _, _, f2⟩ := C101_data_elements h₂ hb (hab ▸ hd)
  obtain ⟨_, he⟩ := C101_unambiguous hroot l1 l2
  have : f = f' := by
    have := congrArg List.getLast? he
    rw [List.getLast?_concat, List.getLast?_concat] at this
    exact Option.some.inj this
  subst this
  exact Option.some.inj (f1.2.symm.trans f2.2)

/-- **C101** a path to an element of a template with plain names, read with `EdifactStack.from_json_path`, gives one level for each
element on the way, with the name of this element. -/
theorem C101_read_back {root : Xml} (hroot : PlainNames root) {d : PyStr} {path : List Nat} {es : List Xml} (h : LeadsTo root d path es) :
    (EdifactStack.fromJsonPath d).levels.length = es.length ∧
    ∀ (i : Nat) (e : Xml), es[i]? = some e → ∃ n : PyStr, NameInPath (es.take i) e n ∧
      (EdifactStack.fromJsonPath d).levels[i]? = some (levelFor n e) := by
  obtain ⟨hp, ns, hn, hns, rfl⟩ := h
  have plain : ∀ l ∈ (stackOf (ns.zip es)).levels, l.NameOk ∧ ∀ i, l.index = some i → 0 ≤ i := by
    intro x hx
    simp only [stackOf, List.mem_map] at hx
    obtain ⟨s, hs, rfl⟩ := hx
    refine ⟨?_, fun i hi => by cases hi⟩
    obtain ⟨i, hi⟩ := List.getElem?_of_mem hs
    rw [List.getElem?_zip_eq_some] at hi
    obtain ⟨before, named, after, h1, h2, _⟩ := hns i _ _ hi.2 hi.1
    have hmem : named ∈ es.take i ++ [s.2] := by rw [h1]; simp
    have : named ∈ es := by
      rcases List.mem_append.1 hmem with h | h
      · exact List.mem_of_mem_take h
      · rw [List.mem_singleton.1 h]
        exact List.mem_of_getElem? hi.2
    exact hroot path es hp named this _ h2
  have hlv : (EdifactStack.fromJsonPath (templatePath (ns.zip es))).levels = (ns.zip es).map fun s => levelFor s.1 s.2 := by
    rw [templatePath_stack, C36_normalisation _ plain]
    simp only [stackOf, List.map_map]
    refine List.map_congr_left fun s _ => ?_
    simp only [Function.comp, levelFor]
    by_cases h : s.2.tag = py!"class" <;> simp [h]
  rw [hlv]
  refine ⟨by simp [hn], fun i e he => ?_⟩
  have hi : i < ns.length := by rw [hn]; exact (List.getElem?_eq_some_iff.1 he).1
  refine ⟨ns[i], hns i e _ he (List.getElem?_eq_getElem hi), ?_⟩
  have hz : (ns.zip es)[i]? = some (ns[i], e) := List.getElem?_zip_eq_some.2 ⟨List.getElem?_eq_getElem hi, he⟩
  rw [List.getElem?_map, hz]
  rfl

/-- templates whose names tell their elements apart have plain names -/
theorem DistinctNames.plain {root : Xml} (h : DistinctNames root) : PlainNames root := by
  intro path es hl e he n hn
  obtain ⟨m, hm, hok⟩ := h.1 path es hl e he
  rw [nameOf_unique hn hm]
  exact hok

/-! ## example -/

/-- a template for the example AHB; the names of the two partners are different -/
def exTemplate : Xml :=
  .elem py!"UTILMD" [] none [xClass [(py!"name", py!"Dokument"), (py!"ref", py!"/"), (py!"key", py!"UNB:5:0")]
    [xClass [(py!"name", py!"Nachricht"), (py!"ref", py!"UNH")]
      [xField [(py!"name", py!"Referenz"), (py!"ref", py!"UNH:1:0"), (py!"meta.id", py!"0062")],
       xClass [(py!"ref", py!"SG2"), (py!"key", py!"NAD:2:0[1:0=MS]"), (py!"name", py!"Absender")]
        [xField [(py!"name", py!"Art"), (py!"ref", py!"NAD:1:0"), (py!"meta.id", py!"3035")]],
       xClass [(py!"ref", py!"SG2"), (py!"key", py!"NAD:2:0[1:0=MR]"), (py!"name", py!"Empfänger")]
        [xField [(py!"name", py!"Art"), (py!"ref", py!"NAD:1:0"), (py!"meta.id", py!"3035")]]]]]

/-- the discriminators of the example: all data elements but one are known to the template -/
example : (toDeepAhb (migLookup exTemplate) exPosStr exFlat exSgh).map (fun r => (documentOrder r.2.lines).map fun
      | .group d _ _ => ('g', d)
      | .segment d _ _ _ _ => ('s', d)
      | .dataElement de => ('d', de.discriminator)) =
    let root := py!"$[\"Dokument\"][0][\"Nachricht\"][0]"
    .ok [('g', some root), ('s', some root), ('d', some (root ++ py!"[\"Referenz\"]")),
      ('g', some (root ++ py!"[\"Absender\"][0]")), ('s', some (root ++ py!"[\"Absender\"][0]")), ('d', some (root ++ py!"[\"Absender\"][0][\"Art\"]")),
      ('g', some (root ++ py!"[\"Empfänger\"][0]")), ('s', some (root ++ py!"[\"Empfänger\"][0]")), ('d', some (root ++ py!"[\"Empfänger\"][0][\"Art\"]")),
      ('s', some py!"position"), ('d', none), ('s', some root)] := by decide +kernel

mutual
/-- the names below the element tell the elements apart -/
def distinctB : Xml → Bool
  | .elem _ _ _ c => decide ((c.map ownName).Nodup) && distinctsB c
/-- the elements and those below have names, and the names below tell the elements apart -/
def distinctsB : List Xml → Bool
  | [] => true
  | x :: xs => (match ownName x with
    | none => false
    | some n => decide (n ≠ []) && n.all noBracket) && distinctB x && distinctsB xs
end

theorem distinct_of_distinctB {root : Xml} (h : distinctB root = true) : DistinctNames root := by
  have hs : ∀ l : List Xml, distinctsB l = true → ∀ x ∈ l, (∃ n, NameOf x n ∧ n ≠ [] ∧ ∀ c ∈ n, c ≠ '[' ∧ c ≠ ']') ∧ distinctB x = true := by
    intro l
    induction l with
    | nil => intro _ x hx; cases hx
    | cons y l ih =>
      intro h x hx
      rw [distinctsB] at h
      simp only [Bool.and_eq_true] at h
      obtain ⟨⟨h1, h2⟩, h3⟩ := h
      rcases List.mem_cons.1 hx with rfl | hx
      · refine ⟨?_, h2⟩
        cases ho : ownName x with
        | none => rw [ho] at h1; cases h1
        | some n =>
          rw [ho] at h1
          simp only [Bool.and_eq_true, decide_eq_true_eq, List.all_eq_true] at h1
          refine ⟨n, (ownName_iff _ _).1 ho, h1.1, fun c hc => ?_⟩
          have := h1.2 c hc
          unfold noBracket at this
          simpa using this
      · exact ih h3 x hx
  have hc : ∀ e : Xml, distinctB e = true → (e.children.map ownName).Nodup ∧ distinctsB e.children = true := by
    intro e he
    cases e
    rw [distinctB] at he
    simpa [Xml.children] using he
  constructor
  · intro path
    induction path generalizing root with
    | nil => intro es hl e he; cases hl; cases he
    | cons i path ih =>
      intro es hl e he
      rw [lineage] at hl
      cases hch : root.children[i]? with
      | none => rw [hch] at hl; cases hl
      | some c =>
        rw [hch, Option.map_eq_some_iff] at hl
        obtain ⟨es', hl, rfl⟩ := hl
        obtain ⟨h1, h2⟩ := hs _ (hc root h).2 c (List.mem_of_getElem? hch)
        rcases List.mem_cons.1 he with rfl | he
        · exact h1
        · exact ih h2 _ hl e he
  · intro path
    induction path generalizing root with
    | nil =>
      intro i j es fs a b n ha hb hna hnb
      rw [List.nil_append, lineage] at ha hb
      cases hi : root.children[i]? with
      | none => rw [hi] at ha; cases ha
      | some c =>
        cases hj : root.children[j]? with
        | none => rw [hj] at hb; cases hb
        | some c' =>
          rw [hi] at ha
          rw [hj] at hb
          simp only [lineage, Option.map_some, Option.some.injEq] at ha hb
          have ha' : es = [] ∧ c = a := by cases es <;> simp_all
          have hb' : fs = [] ∧ c' = b := by cases fs <;> simp_all
          obtain ⟨_, rfl⟩ := ha'
          obtain ⟨_, rfl⟩ := hb'
          have hnd := (hc root h).1
          rw [← ownName_iff] at hna hnb
          have li := (List.getElem?_eq_some_iff.1 hi).1
          have lj := (List.getElem?_eq_some_iff.1 hj).1
          refine (List.Nodup.getElem_inj_iff hnd (hi := by simpa using li) (hj := by simpa using lj)).1 ?_
          rw [List.getElem_map, List.getElem_map, (List.getElem?_eq_some_iff.1 hi).2, (List.getElem?_eq_some_iff.1 hj).2, hna, hnb]
    | cons k path ih =>
      intro i j es fs a b n ha hb hna hnb
      rw [List.cons_append, lineage] at ha hb
      cases hk : root.children[k]? with
      | none => rw [hk] at ha; cases ha
      | some c =>
        rw [hk] at ha hb
        simp only [Option.map_eq_some_iff] at ha hb
        obtain ⟨es', ha, he⟩ := ha
        obtain ⟨fs', hb, hf⟩ := hb
        have h2 := (hs _ (hc root h).2 c (List.mem_of_getElem? hk)).2
        have key : ∀ {l : List Xml} {x : Xml} {es : List Xml}, lineage c (path ++ [i]) = some l ∨ lineage c (path ++ [j]) = some l →
            c :: l = es ++ [x] → ∃ es', l = es' ++ [x] := by
          intro l x es hl he
          have hlen : l.length ≠ 0 := by
            rcases hl with hl | hl <;> rw [lineage_length hl] <;> simp
          cases es with
          | nil => simp at he; simp [he.2] at hlen
          | cons y es => exact ⟨es, by simpa using (List.cons.inj he).2⟩
        obtain ⟨es'', rfl⟩ := key (.inl ha) he
        obtain ⟨fs'', rfl⟩ := key (.inr hb) hf
        exact ih h2 i j _ _ a b n ha hb hna hnb

/-- the hypotheses on the template are met -/
example : DistinctNames exTemplate ∧ OnlyChild (IsClass py!"/") exTemplate 0 ∧ ∃ document, exTemplate.children[0]? = some document := by
  refine ⟨distinct_of_distinctB (by decide +kernel), ⟨⟨_, rfl, rfl, by decide +kernel⟩, ?_⟩, _, rfl⟩
  intro j d hj _
  cases j with
  | zero => rfl
  | succ j => simp [exTemplate, Xml.children] at hj

/-- with plain names, the discriminator of the data element of the sender is read as three classes and a field -/
example : PlainNames exTemplate ∧ EdifactStack.fromJsonPath py!"$[\"Dokument\"][0][\"Nachricht\"][0][\"Absender\"][0][\"Art\"]" =
    ⟨[⟨py!"Dokument", true, some 0⟩, ⟨py!"Nachricht", true, some 0⟩, ⟨py!"Absender", true, some 0⟩, ⟨py!"Art", false, none⟩]⟩ :=
  ⟨(distinct_of_distinctB (by decide +kernel)).plain, by decide +kernel⟩

end Verif
