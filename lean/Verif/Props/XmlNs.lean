import Verif.Spec.XmlNs
import Verif.Spec.MigXml
import Verif.Proofs.XmlNs
import Verif.Props.MigText
import Verif.Props.MigXml
/-!
# C107 MIGs with XML namespaces
-/

namespace Verif

private theorem name_no_brace {s : PyStr} (h : XmlName s) : '{' ∉ s := by
  obtain ⟨c, t, rfl, h, -⟩ := h
  intro hm
  rcases h _ hm with h | h
  · exact absurd h (by decide)
  · exact absurd h (by decide)

private theorem document_tag {s : PyStr} {x : Xml} (h : XmlDocument s x) : XmlName x.tag := by
  obtain ⟨_, _, _, _, _, _, _, he, _⟩ := h
  cases he with
  | empty hn _ _ _ => exact hn
  | full hn _ _ _ _ _ => exact hn

private theorem expanded_root {validUri : PyStr → Bool} {s : PyStr} {x y : Xml} (hd : XmlDocument s x)
    (h : Expanded validUri noNamespaces x y) : ¬ InNoNamespace y ↔ RootInNamespace x := by
  have hname := name_no_brace (document_tag hd)
  have hdist := distinct_of_document hd
  rw [InNoNamespace, Classical.not_not]
  cases h with
  | @mk _ ns' tag tag' attrib attrib' text children children' hok hs ht ha hn hc =>
    change '{' ∉ tag at hname
    change '{' ∈ tag' ↔ ':' ∈ tag ∨ ∃ uri, uri ≠ [] ∧ (py!"xmlns", uri) ∈ attrib
    have hdef : ∀ uri, (∃ a ∈ attrib, Declares a [] uri) ↔ (py!"xmlns", uri) ∈ attrib := by
      intro uri
      constructor
      · rintro ⟨a, ha, hd⟩
        generalize hp : ([] : PyStr) = p at hd
        cases hd with
        | default => exact ha
        | prefixed _ hs => exact absurd hp.symm (localStart_ne hs)
      · exact fun h => ⟨_, h, .default⟩
    cases ht with
    | plain hl hn =>
      refine ⟨fun h => absurd h hname, ?_⟩
      rintro (h | ⟨uri, hu, h⟩)
      · exact absurd h hl
      · have := (hs []).1 _ h uri .default
        rw [if_neg hu, hn] at this
        cases this
    | @default _ uri hl hn =>
      refine ⟨fun _ => .inr ?_, fun _ => by simp⟩
      by_cases h : ∃ a ∈ attrib, ∃ uri, Declares a [] uri
      · obtain ⟨a, ha, u, hd⟩ := h
        have h1 := (hs []).1 a ha u hd
        refine ⟨u, fun h0 => ?_, (hdef u).1 ⟨a, ha, hd⟩⟩
        rw [if_pos h0, hn] at h1
        cases h1
      · have h1 := (hs []).2 h
        rw [hn] at h1
        cases h1
    | prefixed hp hne hl hls hn => exact ⟨fun _ => .inl (by simp), fun _ => by simp⟩

/-! ## C107 -/

/-- **C107** the root of a document is in a namespace exactly if it is written with a prefix or declares a default namespace. -/
theorem C107_root {validUri : PyStr → Bool} {s : PyStr} {x y : Xml} (hd : XmlDocument s x) (h : Expanded validUri noNamespaces x y) :
    '{' ∈ y.tag ↔ RootInNamespace x := by
  rw [← expanded_root hd h, InNoNamespace, Classical.not_not]

/-- **C107** a MIG whose root is in a namespace cannot be used: the sanity check refuses it, whatever the local name of the root is, and
every lookup raises lxml's error. -/
theorem C107_unusable (validUri : PyStr → Bool) {text s : PyStr} (hs : Normalised text s) {x : Xml} (hd : XmlDocument s x)
    (hr : RootInNamespace x) {formats : List PyStr} (hf : ∀ f ∈ formats, '{' ∉ f) :
    (∃ e, checkMigText validUri formats text = .error e ∧ (e = .valueError ∨ e = .other)) ∧
    ∀ l : AhbLocation, l.layers ≠ [] → stackFromText validUri text l = .error .other := by
  by_cases h : ∃ y, NsDocument validUri s y
  · obtain ⟨y, hy⟩ := h
    have hns : ¬ InNoNamespace y := by
      obtain ⟨x', hx', he⟩ := hy
      have : x' = x := by
        have h1 := (C71_documents hs x').2 hx'
        rw [(C71_documents hs x).2 hd] at h1
        cases h1
        rfl
      subst this
      exact (expanded_root hx' he).2 hr
    refine ⟨⟨_, (C72_check_errors validUri hs formats).2 y hy fun hm => hns (hf _ hm), .inl rfl⟩, fun l hl => ?_⟩
    rw [(C72_lookup validUri hs l).1 y hy, getEdifactStack, C49_namespace hns hl]
    rfl
  · exact ⟨⟨_, (C72_check_errors validUri hs formats).1 h, .inr rfl⟩, fun l _ => (C72_lookup validUri hs l).2 h⟩

private theorem expandedList_mem {validUri : PyStr → Bool} {ns : PyStr → Option PyStr} : ∀ {xs ys : List Xml},
    ExpandedList validUri ns xs ys → ∀ x ∈ xs, ∃ y ∈ ys, Expanded validUri ns x y
  | _, _, .nil, x, hx => by cases hx
  | _, _, .cons h hs, x, hx => by
    rcases List.mem_cons.1 hx with rfl | hx
    · exact ⟨_, by simp, h⟩
    · obtain ⟨y, hy, he⟩ := expandedList_mem hs x hx
      exact ⟨y, by simp [hy], he⟩

private theorem descent_declared {validUri : PyStr → Bool} {x : Xml} {es : List Xml} {e : Xml} (h : Descent x es e) :
    ∀ {ns : PyStr → Option PyStr} {y : Xml}, Expanded validUri ns x y → ∀ {p l : PyStr},
      (e.tag = p ++ py!":" ++ l ∨ ∃ v, (p ++ py!":" ++ l, v) ∈ e.attrib ∧ p ≠ py!"xmlns") → NoColon p → p ≠ [] →
      (ns p).isSome ∨ ∃ z ∈ es, ∃ a ∈ z.attrib, ∃ uri, Declares a p uri := by
  have hsplit : ∀ {p l q m : PyStr}, p ++ py!":" ++ l = q ++ py!":" ++ m → NoColon p → NoColon q → p = q := by
    intro p
    induction p with
    | nil =>
      intro l q m h _ hq
      cases q with
      | nil => rfl
      | cons c q =>
        simp only [List.nil_append, List.cons_append, List.cons.injEq] at h
        exact absurd (by simp [← h.1]) hq
    | cons c p ih =>
      intro l q m h hp hq
      cases q with
      | nil =>
        simp only [List.nil_append, List.cons_append, List.cons.injEq] at h
        exact absurd (by simp [h.1]) hp
      | cons d q =>
        simp only [List.cons_append, List.cons.injEq] at h
        rw [h.1, ih h.2 (fun h' => hp (by simp [h'])) (fun h' => hq (by simp [h']))]
  induction h with
  | @here x =>
    intro ns y hx p l ht hp hne
    cases hx with
    | @mk _ ns' tag tag' attrib attrib' text children children' hok hs htag ha hn hc =>
      have hsome : (ns' p).isSome := by
        rcases ht with ht | ⟨v, hv, hxp⟩
        · change tag = _ at ht
          cases htag with
          | plain hl _ => exact absurd (by rw [ht]; simp) hl
          | default hl _ => exact absurd (by rw [ht]; simp) hl
          | prefixed hq _ _ _ hn => rw [hsplit ht.symm hp hq, hn]; rfl
        · change (_, v) ∈ attrib at hv
          clear hok hs hn htag
          induction ha with
          | nil => cases hv
          | declaration hd _ ih =>
            rcases List.mem_cons.1 hv with hv | hv
            · obtain ⟨q, uri, hd⟩ := hd
              rw [← hv] at hd
              generalize hk : (p ++ py!":" ++ l, v) = kv at hd
              cases hd with
              | default =>
                have : _ = py!"xmlns" := congrArg Prod.fst hk
                have h1 : ':' ∈ py!"xmlns" := by rw [← this]; simp
                exact absurd h1 (by decide)
              | @prefixed q _ hq _ =>
                have := congrArg Prod.fst hk
                exact absurd (hsplit (q := py!"xmlns") (m := q) (by simpa using this) hp (by unfold NoColon; decide)) hxp
            · exact ih hv
          | @cons k _ _ _ _ _ hk _ ih =>
            rcases List.mem_cons.1 hv with hv | hv
            · have hk' : _ = k := congrArg Prod.fst hv
              cases hk with
              | plain hl => exact absurd (by rw [← hk']; simp) hl
              | prefixed hq _ _ _ hn => rw [hsplit hk' hp hq, hn]; rfl
            · exact ih hv
      by_cases hdecl : ∃ a ∈ attrib, ∃ uri, Declares a p uri
      · obtain ⟨a, ha, uri, hd⟩ := hdecl
        exact .inr ⟨_, List.mem_singleton.2 rfl, a, ha, uri, hd⟩
      · rw [(hs p).2 hdecl] at hsome
        exact .inl hsome
  | @child x y e es hc hde ih =>
    intro ns z hx p l ht hp hne
    cases hx with
    | @mk _ ns' tag tag' attrib attrib' text children children' hok hs htag ha hn hch =>
      obtain ⟨y', -, hy'⟩ := expandedList_mem hch y hc
      rcases ih hy' ht hp hne with h | ⟨w, hw, h⟩
      · by_cases hdecl : ∃ a ∈ attrib, ∃ uri, Declares a p uri
        · obtain ⟨a, ha, uri, hd⟩ := hdecl
          exact .inr ⟨_, List.mem_cons_self, a, ha, uri, hd⟩
        · rw [(hs p).2 hdecl] at h
          exact .inl h
      · exact .inr ⟨w, by simp [hw], h⟩

/-- **C107** a prefix must be declared at the element or above it (`xml` needs no declaration): a document with an element or an attribute
whose prefix is not declared cannot be read. -/
theorem C107_undeclared_prefix (validUri : PyStr → Bool) {text s : PyStr} (hs : Normalised text s) {x : Xml} (hd : XmlDocument s x)
    {es : List Xml} {e : Xml} (h : Descent x es e) {p l : PyStr}
    (hp : e.tag = p ++ py!":" ++ l ∨ ∃ v, (p ++ py!":" ++ l, v) ∈ e.attrib ∧ p ≠ py!"xmlns") (hc : NoColon p) (hne : p ≠ []) (hxml : p ≠ py!"xml")
    (hn : ¬ ∃ z ∈ es, ∃ a ∈ z.attrib, ∃ uri, Declares a p uri) :
    readXmlLxml validUri text = .error .other := by
  cases hr : readXmlLxml validUri text with
  | error e => rw [readXmlLxml_error validUri hr]
  | ok y =>
    obtain ⟨x', hx', he⟩ := (readXmlLxml_iff validUri hs y).1 hr
    have : x' = x := by
      have h1 := (C71_documents hs x').2 hx'
      rw [(C71_documents hs x).2 hd] at h1
      cases h1
      rfl
    subst this
    rcases descent_declared h he hp hc hne with h | h
    · simp [noNamespaces, hxml] at h
    · exact absurd h hn

/-! ## examples -/

/-- a MIG with a default namespace -/
def exNsDefault : PyStr := py!"<UTILMD xmlns=\"urn:mig\"><class name=\"Dokument\"/></UTILMD>"

/-- the same MIG with a prefix -/
def exNsPrefix : PyStr := py!"<m:UTILMD xmlns:m='urn:mig'><m:class name='Dokument'/></m:UTILMD>"

/-- the expanded root of both -/
def exNsRoot : Xml := .elem py!"{urn:mig}UTILMD" [] none [.elem py!"{urn:mig}class" [(py!"name", py!"Dokument")] none []]

theorem exNs_normalised : Normalised exNsDefault exNsDefault ∧ Normalised exNsPrefix exNsPrefix :=
  ⟨.inl ⟨by decide +kernel, by decide⟩, .inl ⟨by decide +kernel, by decide⟩⟩

/-- both are read as the same document, which is refused -/
example : NsDocument exUri exNsDefault exNsRoot ∧ NsDocument exUri exNsPrefix exNsRoot ∧
    checkMigText exUri [py!"UTILMD"] exNsDefault = .error .valueError ∧ checkMigText exUri [py!"UTILMD"] exNsPrefix = .error .valueError :=
  ⟨(readXmlLxml_iff exUri exNs_normalised.1 _).1 (by decide +kernel), (readXmlLxml_iff exUri exNs_normalised.2 _).1 (by decide +kernel),
    by decide +kernel, by decide +kernel⟩

/-- the documents as they are written are documents with a root in a namespace -/
example : (∃ x, XmlDocument exNsDefault x ∧ RootInNamespace x) ∧ ∃ x, XmlDocument exNsPrefix x ∧ RootInNamespace x :=
  ⟨⟨.elem py!"UTILMD" [(py!"xmlns", py!"urn:mig")] none [.elem py!"class" [(py!"name", py!"Dokument")] none []],
      (C71_documents exNs_normalised.1 _).1 (by decide +kernel), .inr ⟨py!"urn:mig", by decide, by decide⟩⟩,
    ⟨.elem py!"m:UTILMD" [(py!"xmlns:m", py!"urn:mig")] none [.elem py!"m:class" [(py!"name", py!"Dokument")] none []],
      (C71_documents exNs_normalised.2 _).1 (by decide +kernel), .inl (by decide)⟩⟩

/-- a prefix declared only at a sibling -/
def exNsUndeclared : PyStr := py!"<UTILMD><class xmlns:m='urn:mig'/><class m:name='Dokument'/></UTILMD>"

/-- as it is written -/
def exNsUndeclaredRoot : Xml :=
  .elem py!"UTILMD" [] none [.elem py!"class" [(py!"xmlns:m", py!"urn:mig")] none [], .elem py!"class" [(py!"m:name", py!"Dokument")] none []]

example : readXml exNsUndeclared = .ok exNsUndeclaredRoot ∧ readXmlLxml exUri exNsUndeclared = .error .other := by
  have hs : Normalised exNsUndeclared exNsUndeclared := .inl ⟨by decide +kernel, by decide⟩
  have hr : readXml exNsUndeclared = .ok exNsUndeclaredRoot := by decide +kernel
  refine ⟨hr, C107_undeclared_prefix exUri hs ((C71_documents hs _).1 hr)
    (.child (y := .elem py!"class" [(py!"m:name", py!"Dokument")] none []) (by simp [exNsUndeclaredRoot, Xml.children]) .here)
    (p := py!"m") (l := py!"name") (.inr ⟨py!"Dokument", by simp [Xml.attrib], by decide⟩) (by unfold NoColon; decide) (by decide) (by decide) ?_⟩
  rintro ⟨z, hz, a, ha, uri, hd⟩
  have := nsDecl_iff.2 hd
  rcases List.mem_cons.1 hz with rfl | hz
  · cases ha
  · rw [List.mem_singleton.1 hz] at ha
    rw [List.mem_singleton.1 ha] at this
    rw [show nsDecl (py!"m:name", py!"Dokument") = none from by decide] at this
    cases this

/-- a declared prefix at an attribute, a default namespace that is switched off, the prefix `xml` -/
example : (∃ y, readXmlLxml exUri py!"<UTILMD xmlns:m='urn:mig' xml:lang='de'><class m:name='A' name='B'/></UTILMD>" = .ok y ∧
      y.children.map Xml.attrib = [[(py!"{urn:mig}name", py!"A"), (py!"name", py!"B")]]) ∧
    checkMigText exUri [py!"UTILMD"] py!"<UTILMD xmlns=''/>" = .ok () :=
  ⟨⟨_, rfl, by decide +kernel⟩, by decide +kernel⟩

end Verif
