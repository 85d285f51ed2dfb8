import Verif.Proofs.UniqueFields
import Verif.Proofs.GroupRequirements
import Verif.Props.Deep
/-!
# Property C126: does the discriminator identify a data element?
-/

namespace Verif

/-- **C126 (full statement)** "The discriminator uniquely identifies the data element": if the names of the template tell its elements apart, the
data elements of the deep AHB which the template knows have pairwise different discriminators. This is false of the code: `C126_counterexample`. -/
def C126_statement : Prop :=
  ∀ (root : Xml) (posStr : AhbLocation → PyStr) (flat flat' : FlatAhb) (sgh : Sgh) (deep : DeepAhb), DistinctNames root →
    toDeepAhb (migLookup root) posStr flat sgh = .ok (flat', deep) →
    ((documentOrder deep.lines).filterMap DocItem.fieldDiscriminator).Nodup

/-- **C126 (what a discriminator tells)** two data elements with the same discriminator have the same id and are described at locations inside the
same segment groups, and the segment is the same or the template has the field directly in the class of the group. -/
theorem C126_same_discriminator {root : Xml} (hroot : DistinctNames root) {posStr : AhbLocation → PyStr} {flat flat' : FlatAhb} {sgh : Sgh}
    {deep : DeepAhb} (h : toDeepAhb (migLookup root) posStr flat sgh = .ok (flat', deep)) {a b : DataElement}
    (ha : DataElementOccurs deep.lines a) (hb : DataElementOccurs deep.lines b) {d : PyStr} (had : a.discriminator = some d)
    (hbd : b.discriminator = some d) :
    ∃ lineA locA lineB locB, LocatedAt sgh flat lineA locA ∧ LocatedAt sgh flat lineB locB ∧ locA.dataElementId = some a.dataElementId ∧
      locB.dataElementId = some b.dataElementId ∧ a.dataElementId = b.dataElementId ∧ locA.groups = locB.groups ∧
      (locA.segmentCode = locB.segmentCode ∨ ∃ path document classes class_ field, LeadsTo root d path (document :: classes ++ [class_, field]) ∧
        some (groupRef (locA.layers.getLast?.bind (·.segmentGroupKey))) = dictGet py!"ref" class_.attrib) := by
  obtain ⟨located, hl, hdoc, _⟩ := toDeepAhb_facts h
  obtain ⟨hflat, hkeys, _⟩ := C15_runs located
  have facts : ∀ {x : DataElement}, DataElementOccurs deep.lines x → x.discriminator = some d → ∃ r ∈ runsOf located, FieldPath root r d ∧
      ∃ y ∈ r.2, y.2.dataElementId = some x.dataElementId ∧ LocatedAt sgh flat y.1 y.2 := by
    intro x hx hxd
    rw [← mem_documentOrder_dataElement, hdoc] at hx
    obtain ⟨r, hr, used, hm⟩ := createdItems_run _ _ hx
    obtain ⟨_, first, rest, id, hlines, hid, _, hdisc, hid', _⟩ := merge_ok (created_dataElement hm)
    obtain ⟨_, _, _, _, hsame, _⟩ := run_slice hl r hr
    obtain ⟨y, hy⟩ := List.exists_mem_of_ne_nil _ (hkeys r hr).1
    refine ⟨r, hr, created_field hm hxd, y, hy, ?_, located, y.2, hl, ?_, rfl, rfl, rfl, .inl rfl⟩
    · rw [(run_location_eq hr (.inr ⟨y, hy, rfl⟩)).2, ← hsame first (by rw [hlines]; simp), hid, hid']
    · rw [← hflat, List.mem_flatMap]
      exact ⟨r, hr, hy⟩
  obtain ⟨r, hr, hrd, x, hx, hxa, hxl⟩ := facts ha had
  obtain ⟨s, hs, hsd, y, hy, hyb, hyl⟩ := facts hb hbd
  obtain ⟨_, h2, h3, h4, _⟩ := runs_same_path hroot hl hr hs hrd hsd hx hy
  refine ⟨x.1, x.2, y.1, y.2, hxl, hyl, hxa, hyb, ?_, h3, ?_⟩
  · rw [hxa, hyb] at h2
    exact Option.some.inj h2
  · refine h4.imp id ?_
    rintro ⟨path, msg, classes, field, id, hp, _, hc⟩
    have hne : x.2.layers ≠ [] := by
      obtain ⟨hlen, htr⟩ := determineLocations_trace hl
      have hxm : x ∈ located := by rw [← hflat, List.mem_flatMap]; exact ⟨r, hr, hx⟩
      obtain ⟨n, hn, hxn⟩ := List.getElem_of_mem hxm
      obtain ⟨layers, g1, g2, _⟩ := htr n _ (List.getElem?_eq_getElem (hlen ▸ hn))
      rw [List.getElem?_eq_getElem hn, hxn] at g1
      cases g1
      exact g2
    rcases List.eq_nil_or_concat x.2.layers with he | ⟨ls, l, he⟩
    · exact absurd he hne
    rcases List.eq_nil_or_concat classes with rfl | ⟨cs, c, rfl⟩
    · have := hc.length_eq
      simp at this
      exact absurd this hne
    · rw [List.concat_eq_append] at hc hp he
      rw [he] at hc ⊢
      have hlen : ls.length = cs.length := by have := hc.length_eq; simpa using this
      have hdr := List.forall₂_drop ls.length hc
      rw [List.drop_left, hlen, List.drop_left] at hdr
      cases hdr with
      | cons hh _ =>
        refine ⟨path, msg, cs, c, field, by simpa using hp, ?_⟩
        rw [List.getLast?_concat, hh.2, ref_groupRef]
        rfl

/-- **C126 (partial, groups)** the statement holds if no two parts of the AHB describe a data element with the same id inside the same segment
groups. Missing: AHBs in which a segment or a group is repeated or two segments of a group have a data element in common. -/
theorem C126_groups_partial {root : Xml} (hroot : DistinctNames root) {posStr : AhbLocation → PyStr} {flat flat' : FlatAhb} {sgh : Sgh}
    {deep : DeepAhb} (h : toDeepAhb (migLookup root) posStr flat sgh = .ok (flat', deep))
    (hone : EachFieldOnce AhbLocation.SameIdAndGroups sgh flat.lines) :
    ((documentOrder deep.lines).filterMap DocItem.fieldDiscriminator).Nodup := by
  refine fields_nodup hroot h ?_ hone
  intro located hl r hr s hs d hrd hsd x hx y hy
  obtain ⟨_, h2, h3, _⟩ := runs_same_path hroot hl hr hs hrd hsd hx hy
  exact ⟨h2, h3⟩

/-- **C126 (partial, segments)** if in the template every field is in a class of its own segment, it is enough that no two parts describe a data
element with the same id in the same segment inside the same segment groups. -/
theorem C126_segments_partial {root : Xml} (hroot : DistinctNames root) (hseg : FieldsInSegments root) {posStr : AhbLocation → PyStr}
    {flat flat' : FlatAhb} {sgh : Sgh} {deep : DeepAhb} (h : toDeepAhb (migLookup root) posStr flat sgh = .ok (flat', deep))
    (hone : EachFieldOnce AhbLocation.SameIdSegmentAndGroups sgh flat.lines) :
    ((documentOrder deep.lines).filterMap DocItem.fieldDiscriminator).Nodup := by
  refine fields_nodup hroot h ?_ hone
  intro located hl r hr s hs d hrd hsd x hx y hy
  obtain ⟨_, h2, h3, h4, _⟩ := runs_same_path hroot hl hr hs hrd hsd hx hy
  refine ⟨h2, ?_, h3⟩
  rcases h4 with h4 | ⟨path, msg, classes, field, id, hp, hf, hc⟩
  · exact h4
  · have hxm : x ∈ located := by rw [← (C15_runs located).1, List.mem_flatMap]; exact ⟨r, hr, hx⟩
    have hne : x.2.layers ≠ [] := by
      obtain ⟨hlen, htr⟩ := determineLocations_trace hl
      obtain ⟨n, hn, hxn⟩ := List.getElem_of_mem hxm
      obtain ⟨layers, g1, g2, _⟩ := htr n _ (List.getElem?_eq_getElem (hlen ▸ hn))
      rw [List.getElem?_eq_getElem hn, hxn] at g1
      cases g1
      exact g2
    exact (not_in_segment hseg hne (located_codesOk hl x hxm).2 hp.1 hf hc).elim

/-- **C126 (partial, classes)** if the template has one document class, it is enough that no two parts describe a data element with the same id
below the same class of the template: groups that are told apart by their opening qualifiers count as different. -/
theorem C126_classes_partial {root document : Xml} {m : Nat} (hm : OnlyChild (IsClass py!"/") root m) (hc : root.children[m]? = some document)
    (hroot : DistinctNames root) {posStr : AhbLocation → PyStr} {flat flat' : FlatAhb} {sgh : Sgh} {deep : DeepAhb}
    (h : toDeepAhb (migLookup root) posStr flat sgh = .ok (flat', deep))
    (hone : EachFieldOnce (AhbLocation.SameIdAndClass document) sgh flat.lines) :
    ((documentOrder deep.lines).filterMap DocItem.fieldDiscriminator).Nodup := by
  refine fields_nodup hroot h ?_ hone
  intro located hl r hr s hs d hrd hsd x hx y hy
  obtain ⟨_, h2, _, _, h5⟩ := runs_same_path hroot hl hr hs hrd hsd hx hy
  exact ⟨h2, h5 m document hm hc⟩

/-- **C126 (value pools)** if the discriminators are pairwise different, `get_all_value_pools`, which returns one value pool for each discriminator,
leaves out no value pool which the template knows. -/
theorem C126_value_pools {deep : DeepAhb} (h : ((documentOrder deep.lines).filterMap DocItem.fieldDiscriminator).Nodup) {x : DataElement}
    (hx : DataElementOccurs deep.lines x) (hp : x.isValuePool = true) (hd : x.discriminator ≠ none) : x ∈ deep.getAllValuePools := by
  obtain ⟨d, hd⟩ := Option.ne_none_iff_exists'.1 hd
  obtain ⟨h1, _, h3, _⟩ := C32_get_all_value_pools deep
  obtain ⟨y, hy, hyd⟩ := h3 x hp hx
  have he := filterMap_nodup_inj h ((mem_documentOrder_dataElement _ _).2 hx) ((mem_documentOrder_dataElement _ _).2 (h1 y hy).2) (d := d)
    hd (hyd.trans hd)
  cases he
  exact hy

/-! ## examples and counterexamples -/

/-- the lines of the example, followed by the message reference in the segment that ends the message -/
def exReferenceTwice : FlatAhb := { exFlat with lines := exLines ++
  [{ segmentCode := some py!"UNT", dataElement := some py!"0062", sectionName := some py!"Ende", ahbExpression := some py!"Muss",
     name := some py!"Referenz", index := some 13 }] }

/-- **C126 is false in general**: the message reference 0062 is in the first and in the last segment of a message; the template has one field for
it, and both data elements have the path to this field as discriminator. -/
theorem C126_counterexample : ¬ C126_statement := by
  intro h
  have hev : (toDeepAhb (migLookup exTemplate) exPosStr exReferenceTwice exSgh).map (fun r => decide
      (((documentOrder r.2.lines).filterMap DocItem.fieldDiscriminator).Nodup)) = .ok false := by decide +kernel
  cases hr : toDeepAhb (migLookup exTemplate) exPosStr exReferenceTwice exSgh with
  | error e => rw [hr] at hev; cases hev
  | ok r =>
    rw [hr] at hev
    exact of_decide_eq_false (Except.ok.inj hev) (h exTemplate exPosStr exReferenceTwice r.1 exSgh r.2 (distinct_of_distinctB (by decide +kernel)) hr)

/-- the sender described twice, with different value pools -/
def exSenderTwice : FlatAhb := { exFlat with lines := exLines.take 6 ++
  [{ exLines.getD 3 {} with index := some 6 }, { exLines.getD 4 {} with index := some 7 },
   { exLines.getD 5 {} with index := some 8, name := some py!"Anderer" }] }

/-- **C126 (value pools are lost)** there is a deep AHB made from a flat AHB with a value pool which the template knows, but which
`get_all_value_pools` does not return: another one has the same discriminator. -/
theorem C126_value_pool_lost : ∃ (root : Xml) (posStr : AhbLocation → PyStr) (flat flat' : FlatAhb) (sgh : Sgh) (deep : DeepAhb) (x : DataElement),
    DistinctNames root ∧ toDeepAhb (migLookup root) posStr flat sgh = .ok (flat', deep) ∧ DataElementOccurs deep.lines x ∧
    x.isValuePool = true ∧ x.discriminator ≠ none ∧ x ∉ deep.getAllValuePools := by
  have hev : (toDeepAhb (migLookup exTemplate) exPosStr exSenderTwice exSgh).map (fun r => (documentOrder r.2.lines).any fun
      | .dataElement x => x.isValuePool && x.discriminator.isSome && decide (x ∉ r.2.getAllValuePools)
      | _ => false) = .ok true := by decide +kernel
  cases hr : toDeepAhb (migLookup exTemplate) exPosStr exSenderTwice exSgh with
  | error e => rw [hr] at hev; cases hev
  | ok r =>
    rw [hr] at hev
    obtain ⟨x, hx, hp⟩ := List.any_eq_true.1 (Except.ok.inj hev)
    cases x with
    | group _ _ _ => cases hp
    | segment _ _ _ _ _ => cases hp
    | dataElement x =>
      simp only [Bool.and_eq_true, decide_eq_true_eq] at hp
      refine ⟨exTemplate, exPosStr, exSenderTwice, r.1, exSgh, r.2, x, distinct_of_distinctB (by decide +kernel), hr,
        (mem_documentOrder_dataElement _ _).1 hx, hp.1.1, ?_, hp.2⟩
      intro hn
      rw [hn] at hp
      cases hp.1.2

/-- the premise on the AHB, computed -/
theorem eachFieldOnce_of {same : AhbLocation → AhbLocation → Prop} [∀ a b, Decidable (same a b)] {sgh : Sgh} {lines : List AhbLine}
    (h : (determineLocations sgh lines).map (fun located => decide (((runsOf located).map Prod.snd).Pairwise fun p q =>
      ∀ x ∈ p, ∀ y ∈ q, x.2.dataElementId ≠ none → ¬ same x.2 y.2)) = .ok true) : EachFieldOnce same sgh lines := by
  intro located parts hl hp
  rw [placeParts_unique hp (runs_placeParts located)]
  rw [hl] at h
  exact of_decide_eq_true (Except.ok.inj h)

instance (a b : AhbLocation) : Decidable (a.SameIdAndGroups b) := by unfold AhbLocation.SameIdAndGroups; infer_instance
instance (a b : AhbLocation) : Decidable (a.SameIdSegmentAndGroups b) := by unfold AhbLocation.SameIdSegmentAndGroups; infer_instance

/-- an AHB that meets the premises: the message reference, the sender and the transaction -/
def exFieldsOnce : FlatAhb := { exFlat with lines := exLines.take 6 ++ exLines.drop 9 }

example : EachFieldOnce AhbLocation.SameIdAndGroups exSgh exFieldsOnce.lines ∧ DistinctNames exTemplate ∧
    (toDeepAhb (migLookup exTemplate) exPosStr exFieldsOnce exSgh).map (fun r => (documentOrder r.2.lines).filterMap DocItem.fieldDiscriminator) =
      .ok [py!"$[\"Dokument\"][0][\"Nachricht\"][0][\"Referenz\"]", py!"$[\"Dokument\"][0][\"Nachricht\"][0][\"Absender\"][0][\"Art\"]"] :=
  ⟨eachFieldOnce_of (by decide +kernel), distinct_of_distinctB (by decide +kernel), by decide +kernel⟩

mutual
/-- every field below the element is in a class of its own segment -/
def fieldsB : Xml → Bool
  | .elem _ a _ c => ((c.all fun f => f.tag != py!"field") || (match dictGet py!"ref" a with
    | some r => r != py!"UNH" && !(sgKeyRe.fullMatch r).isSome
    | none => false)) && fieldsBs c
/-- the same for several elements -/
def fieldsBs : List Xml → Bool
  | [] => true
  | x :: xs => fieldsB x && fieldsBs xs
end

theorem fieldsBs_mem {l : List Xml} (h : fieldsBs l = true) : ∀ x ∈ l, fieldsB x = true := by
  induction l with
  | nil => intro x hx; cases hx
  | cons y l ih =>
    rw [fieldsBs, Bool.and_eq_true] at h
    intro x hx
    rcases List.mem_cons.1 hx with rfl | hx
    · exact h.1
    · exact ih h.2 x hx

theorem fieldsInSegments_of {root : Xml} (h : fieldsBs root.children = true) : FieldsInSegments root := by
  intro path
  induction path generalizing root with
  | nil => intro es c f hl; cases es <;> cases hl
  | cons i path ih =>
    intro es c f hl hf
    rw [lineage] at hl
    cases hch : root.children[i]? with
    | none => rw [hch] at hl; cases hl
    | some x =>
      rw [hch, Option.map_eq_some_iff] at hl
      obtain ⟨rest, hl, he⟩ := hl
      have hx := fieldsBs_mem h x (List.mem_of_getElem? hch)
      obtain ⟨t, a, tx, ch⟩ := x
      rw [fieldsB, Bool.and_eq_true] at hx
      cases es with
      | cons y es =>
        obtain ⟨_, he⟩ := List.cons.inj he
        subst he
        exact ih (root := .elem t a tx ch) hx.2 es c f hl hf
      | nil =>
        obtain ⟨hxc, hrest⟩ := List.cons.inj he
        clear he
        subst hxc hrest
        cases path with
        | nil => cases hl
        | cons j path =>
          rw [lineage] at hl
          cases hj : (Xml.elem t a tx ch).children[j]? with
          | none => rw [hj] at hl; cases hl
          | some y =>
            rw [hj, Option.map_eq_some_iff] at hl
            obtain ⟨rest, _, he⟩ := hl
            obtain ⟨rfl, _⟩ := List.cons.inj he
            have hmem : y ∈ ch := List.mem_of_getElem? hj
            rcases Bool.or_eq_true_iff.1 hx.1 with h1 | h1
            · have := List.all_eq_true.1 h1 y hmem
              rw [hf] at this
              simp at this
            · cases hr : dictGet py!"ref" a with
              | none => rw [hr] at h1; cases h1
              | some r =>
                rw [hr] at h1
                simp only [Bool.and_eq_true, bne_iff_ne, ne_eq, Bool.not_eq_true'] at h1
                refine ⟨r, hr, h1.1, fun hk => ?_⟩
                rw [(sgKeyRe_iff r).2 hk] at h1
                cases h1.2

/-- a template with a class for each segment -/
def exSegmentTemplate : Xml :=
  .elem py!"UTILMD" [] none [xClass [(py!"name", py!"Dokument"), (py!"ref", py!"/"), (py!"key", py!"UNB:5:0")]
    [xClass [(py!"name", py!"Nachricht"), (py!"ref", py!"UNH")]
      [xClass [(py!"name", py!"Beginn"), (py!"ref", py!"BGM")]
        [xField [(py!"name", py!"Nummer"), (py!"ref", py!"BGM:2:0"), (py!"meta.id", py!"1004")]],
       xClass [(py!"name", py!"Verweis"), (py!"ref", py!"RFF")]
        [xField [(py!"name", py!"Nummer"), (py!"ref", py!"RFF:1:1"), (py!"meta.id", py!"1004")]]]]]

/-- the same data element in two segments -/
def exTwoSegments : FlatAhb :=
  let ln (c d : Option PyStr) (i : Int) : AhbLine :=
    { segmentCode := c, dataElement := d, sectionName := some py!"Kopf", ahbExpression := some py!"Muss", name := some py!"Name", index := some i }
  { exFlat with lines := [ln none none 0, ln (some py!"UNH") none 1, ln (some py!"BGM") none 2, ln (some py!"BGM") (some py!"1004") 3,
    ln (some py!"RFF") none 4, ln (some py!"RFF") (some py!"1004") 5] }

/-- the premises of `C126_segments_partial` are met, those of `C126_groups_partial` are not -/
example : FieldsInSegments exSegmentTemplate ∧ DistinctNames exSegmentTemplate ∧
    EachFieldOnce AhbLocation.SameIdSegmentAndGroups exSgh exTwoSegments.lines ∧
    (toDeepAhb (migLookup exSegmentTemplate) exPosStr exTwoSegments exSgh).map (fun r =>
      (documentOrder r.2.lines).filterMap DocItem.fieldDiscriminator) =
      .ok [py!"$[\"Dokument\"][0][\"Nachricht\"][0][\"Beginn\"][0][\"Nummer\"]", py!"$[\"Dokument\"][0][\"Nachricht\"][0][\"Verweis\"][0][\"Nummer\"]"] :=
  ⟨fieldsInSegments_of (by decide +kernel), distinct_of_distinctB (by decide +kernel), eachFieldOnce_of (by decide +kernel), by decide +kernel⟩

/-- the class may be the one of the layer -/
def fitB (parent : Xml) (l : AhbLocationLayer) (c : Xml) : Bool :=
  (parent.children.countP fun d => d.tag == py!"class" && dictGet py!"ref" d.attrib == some l.ref) ≤ 1 ||
    (match hasQualifier py!"key" l.openingQualifier ⟨[], c⟩ with
    | .ok b => b
    | .error _ => false)

/-- the layers of both locations may lead to the same class -/
def meetB : Xml → List AhbLocationLayer → List AhbLocationLayer → Bool
  | _, [], [] => true
  | parent, l :: ls, l' :: ls' => parent.children.any fun c => fitB parent l c && fitB parent l' c && meetB c ls ls'
  | _, _, _ => false

theorem countP_le_one {α : Type} (p : α → Bool) : ∀ (l : List α) (i : Nat), (∀ (j : Nat) (d : α), l[j]? = some d → p d = true → j = i) → l.countP p ≤ 1 := by
  intro l
  induction l with
  | nil => simp
  | cons x l ih =>
    intro i h
    rw [List.countP_cons]
    by_cases hx : p x = true
    · have h0 := h 0 x rfl hx
      have : l.countP p = 0 := by
        rw [List.countP_eq_zero]
        intro y hy hpy
        obtain ⟨j, hj⟩ := List.getElem?_of_mem hy
        have := h (j + 1) y (by simpa using hj) hpy
        omega
      simp [this, hx]
    · have := ih (i - 1) (fun j d hj hd => by
        have := h (j + 1) d (by simpa using hj) hd
        omega)
      simpa [hx] using this

theorem fitB_of {parent c : Xml} {l : AhbLocationLayer} {i : Nat} (hc : parent.children[i]? = some c)
    (h : OnlyChild (IsClass l.ref) parent i ∨ FirstOfMany (IsClass l.ref) (Mentions py!"key" l.openingQualifier) parent i) : fitB parent l c = true := by
  unfold fitB
  rcases h with h | ⟨⟨d, hd, _, hm⟩, _⟩
  · rw [Bool.or_eq_true]
    refine .inl (decide_eq_true (countP_le_one _ _ i fun j d hj hd => h.2 j d hj ?_))
    simp only [Bool.and_eq_true, beq_iff_eq] at hd
    exact hd
  · rw [hc] at hd
    cases hd
    rw [(hasQualifier_true (n := ⟨[], c⟩)).2 hm]
    simp

theorem meetB_of {parent e e' : Xml} {ls ls' : List AhbLocationLayer} {p : List Nat} (h : LayerWalk parent ls p e) (h' : LayerWalk parent ls' p e') :
    meetB parent ls ls' = true := by
  induction h generalizing ls' with
  | nil => cases h'; rfl
  | cons hc hi _ ih =>
    cases h' with
    | cons hc' hi' h2 =>
      rw [hc] at hc'
      cases hc'
      rw [meetB, List.any_eq_true]
      exact ⟨_, List.mem_of_getElem? hc, by rw [fitB_of hc hi, fitB_of hc hi', ih h2]; rfl⟩

theorem eachFieldOnce_mono {P Q : AhbLocation → AhbLocation → Prop} (hpq : ∀ a b, Q a b → P a b) {sgh : Sgh} {lines : List AhbLine}
    (h : EachFieldOnce P sgh lines) : EachFieldOnce Q sgh lines :=
  fun located parts h1 h2 => (h located parts h1 h2).imp fun hp x hx y hy hne hq => hp x hx y hy hne (hpq _ _ hq)

/-- the premises of `C126_classes_partial` are met by the example AHB, in which sender and receiver are told apart by their qualifiers -/
example : ∃ document, OnlyChild (IsClass py!"/") exTemplate 0 ∧ exTemplate.children[0]? = some document ∧
    EachFieldOnce (AhbLocation.SameIdAndClass document) exSgh exLines := by
  refine ⟨_, ⟨⟨_, rfl, rfl, by decide +kernel⟩, ?_⟩, rfl, ?_⟩
  · intro j d hj _
    cases j with
    | zero => rfl
    | succ j => simp [exTemplate, Xml.children] at hj
  · refine eachFieldOnce_mono (P := fun a b => a.dataElementId = b.dataElementId ∧
      (exTemplate.children.any fun document => meetB document a.layers b.layers) = true) ?_ (eachFieldOnce_of (by decide +kernel))
    rintro a b ⟨h1, p, e, ha, hb⟩
    exact ⟨h1, List.any_eq_true.2 ⟨_, by simp only [exTemplate, Xml.children]; exact List.mem_singleton_self _, meetB_of ha hb⟩⟩

end Verif
