import Verif.Proofs.Texts
import Verif.Proofs.JsonTexts
import Verif.Props.TemplatePath
import Verif.Props.Surrogates
import Verif.Props.JsonGrammar
/-!
# C124: every text of a MAUS comes from the flat AHB or from the template
-/

namespace Verif

/-- **C124 (segments)** every segment has the index and the section name of one line of the flat AHB and the expression of a line with the same
data element and location (not trimmed), and it has no segment id. -/
theorem C124_segments {reader : MigLookup} {posStr : AhbLocation → PyStr} {flat flat' : FlatAhb} {sgh : Sgh} {deep : DeepAhb}
    (h : toDeepAhb reader posStr flat sgh = .ok (flat', deep)) {s : Segment} (hs : SegmentOccurs deep.lines s) :
    (∃ first ∈ flat.lines, s.ahbLineIndex = first.index ∧ s.sectionName = first.sectionName) ∧ s.segmentId = none ∧
      ∃ line ∈ flat.lines, line.ahbExpression = some s.ahbExpression ∧ s.ahbExpression ≠ [] ∧ line.dataElement = none := by
  obtain ⟨located, hl, hdoc, _⟩ := toDeepAhb_facts h
  obtain ⟨g, hg, hsg⟩ := hs
  have hx : s.header ∈ documentOrder deep.lines := (mem_documentOrder_iff _ _).2 ⟨g, hg, .inr ⟨s, hsg, by simp [Segment.docItems]⟩⟩
  rw [hdoc] at hx
  obtain ⟨r, hr, used, hm⟩ := createdItems_run _ _ hx
  obtain ⟨hnd, _⟩ := created_segment hm
  obtain ⟨⟨first, h1, h2, h3⟩, h4, l, hl', h5, h6⟩ := created_segment_line hm
  obtain ⟨pre, post, hlines, hne, hsame, _⟩ := run_slice hl r hr
  refine ⟨⟨first, by rw [hlines]; simp [List.mem_of_head? h1], h2, h3⟩, h4, l, by rw [hlines]; simp [hl'], h5, h6, ?_⟩
  cases hf : l.dataElement with
  | none => rfl
  | some x =>
    unfold Run.hasDataElement at hnd
    rw [List.any_eq_false] at hnd
    exact absurd (by rw [hf]; rfl) (hnd l hl')

/-- **C124 (data elements)** the lines behind a data element are consecutive lines of the flat AHB with its id. Nothing has been entered. The
expression of a free text is that of the first of the lines; each entry of a value pool has the qualifier and the expression of one of the
lines, as they are, and its trimmed name as meaning. -/
theorem C124_data_elements {reader : MigLookup} {posStr : AhbLocation → PyStr} {flat flat' : FlatAhb} {sgh : Sgh} {deep : DeepAhb}
    (h : toDeepAhb reader posStr flat sgh = .ok (flat', deep)) {de : DataElement} (hde : DataElementOccurs deep.lines de) :
    ∃ pre lines post first, flat.lines = pre ++ lines ++ post ∧ lines.head? = some first ∧
      (∀ l ∈ lines, l.dataElement = some de.dataElementId) ∧ de.enteredInput = none ∧
      (∀ e, de.kind = .freeText e → first.ahbExpression = some e ∧ first.valuePoolEntry = none) ∧
      ∀ es, de.kind = .valuePool es → ∀ x ∈ es, ∃ l ∈ lines, l.valuePoolEntry = some x.qualifier ∧
        l.ahbExpression = some x.ahbExpression ∧ ∃ n, l.name = some n ∧ x.meaning = trim n := by
  obtain ⟨located, hl, hdoc, _⟩ := toDeepAhb_facts h
  rw [← mem_documentOrder_dataElement, hdoc] at hde
  obtain ⟨r, hr, used, hm⟩ := createdItems_run _ _ hde
  obtain ⟨_, first, rest, id, hlines, hid, _, _, hid', hin, hpool, hfree⟩ := merge_ok (created_dataElement hm)
  obtain ⟨pre, post, hflat, hne, hsame, _⟩ := run_slice hl r hr
  refine ⟨pre, r.lines, post, first, hflat, by rw [hlines]; rfl, fun l hl => ?_, hin, fun e he => ?_, fun es hes x hx => ?_⟩
  · rw [hsame l hl, ← hsame first (by rw [hlines]; simp), hid, hid']
  · by_cases hv : first.valuePoolEntry = none
    · obtain ⟨_, e', he', h1, _⟩ := hfree hv
      rw [he] at he'
      cases he'
      exact ⟨h1, hv⟩
    · obtain ⟨_, es, hes, _⟩ := hpool hv
      rw [he] at hes; cases hes
  · by_cases hv : first.valuePoolEntry = none
    · obtain ⟨_, e', he', h1, _⟩ := hfree hv
      rw [hes] at he'; cases he'
    · obtain ⟨_, es', hes', hmerge⟩ := hpool hv
      rw [hes] at hes'
      cases hes'
      have hf := mergeEntries_ok hmerge
      obtain ⟨i, hi, rfl⟩ := List.getElem_of_mem hx
      have hlen := hf.length_eq
      have hp := (List.forall₂_iff_get.1 hf).2 i (by omega) hi
      refine ⟨_, (List.mem_filter.1 (List.get_mem _ ⟨i, by omega⟩)).1, hp.1, hp.2.2.1, ?_⟩
      obtain ⟨n, h1, h2⟩ := hp.2.1
      exact ⟨n, h1, by rw [trim_eq]; exact h2⟩

/-- **C124** every text of a MAUS made by `to_deep_ahb`, in its meta information, its groups, segments, data elements and value pools, is the
version of the library, a text of the flat AHB (possibly trimmed), a path to an element of the template, or a printed location of a line. -/
theorem C124_texts {root : Xml} {posStr : AhbLocation → PyStr} {flat flat' : FlatAhb} {sgh : Sgh} {deep : DeepAhb}
    (h : toDeepAhb (migLookup root) posStr flat sgh = .ok (flat', deep)) {t : PyStr} (ht : MausText deep t) :
    t = mausVersion ∨ (∃ s, FlatText flat s ∧ (t = s ∨ t = trim s)) ∨ (∃ path es, LeadsTo root t path es) ∨
      ∃ line loc, LocatedAt sgh flat line loc ∧ t = posStr loc := by
  obtain ⟨m1, m2, m3, m4, _⟩ := C21_metadata _ _ _ _ _ _ h
  have hline : ∀ {l : AhbLine} {x : PyStr}, l ∈ flat.lines → l.HasText x → FlatText flat x := fun hl hx => .inr (.inr (.inr ⟨_, hl, hx⟩))
  cases ht with
  | pruefidentifikator => exact .inr (.inl ⟨_, .inl rfl, .inl m1⟩)
  | version hv => rw [m4] at hv; cases hv; exact .inl rfl
  | description hv => rw [m2] at hv; exact .inr (.inl ⟨_, .inr (.inl hv), .inl rfl⟩)
  | direction hv => rw [m3] at hv; exact .inr (.inl ⟨_, .inr (.inr (.inl hv)), .inl rfl⟩)
  | groupDiscriminator hg hd =>
    obtain ⟨_, _, _, _, d, path, a, b, c, hd', hlead, _⟩ := C101_groups h hg
    rw [hd] at hd'; cases hd'
    exact .inr (.inr (.inl ⟨_, _, hlead⟩))
  | groupExpression hg =>
    obtain ⟨line, hl, _, ⟨e, he, he'⟩, _⟩ := C101_groups h hg
    exact .inr (.inl ⟨e, hline hl (by simp [AhbLine.HasText, he]), .inr he'⟩)
  | segmentDiscriminator hs hd =>
    obtain ⟨d, hd', hcase⟩ := C101_segments h hs
    rw [hd] at hd'; cases hd'
    rcases hcase with ⟨path, a, b, hlead, _⟩ | ⟨line, loc, _, h1, h2, _⟩
    · exact .inr (.inr (.inl ⟨_, _, hlead⟩))
    · exact .inr (.inr (.inr ⟨line, loc, h2, h1⟩))
  | segmentExpression hs =>
    obtain ⟨_, _, line, hl, he, _⟩ := C124_segments h hs
    exact .inr (.inl ⟨_, hline hl (by simp [AhbLine.HasText, he]), .inl rfl⟩)
  | sectionName hs hn =>
    obtain ⟨⟨first, hl, _, h1⟩, _⟩ := C124_segments h hs
    rw [hn] at h1
    exact .inr (.inl ⟨_, hline hl (by simp [AhbLine.HasText, ← h1]), .inl rfl⟩)
  | segmentId hs hi =>
    obtain ⟨_, h1, _⟩ := C124_segments h hs
    rw [h1] at hi; cases hi
  | elementDiscriminator hd hx =>
    obtain ⟨path, a, b, c, hlead, _⟩ := C101_data_elements h hd hx
    exact .inr (.inr (.inl ⟨_, _, hlead⟩))
  | elementId hd =>
    obtain ⟨pre, lines, post, first, h1, h2, h3, _⟩ := C124_data_elements h hd
    have hf := List.mem_of_head? h2
    exact .inr (.inl ⟨_, hline (l := first) (by rw [h1]; simp [hf]) (by simp [AhbLine.HasText, h3 first hf]), .inl rfl⟩)
  | enteredInput hd hx =>
    obtain ⟨pre, lines, post, first, h1, h2, h3, h4, _⟩ := C124_data_elements h hd
    rw [h4] at hx; cases hx
  | freeText hd hx =>
    obtain ⟨pre, lines, post, first, h1, h2, h3, h4, h5, _⟩ := C124_data_elements h hd
    have hf := List.mem_of_head? h2
    exact .inr (.inl ⟨_, hline (l := first) (by rw [h1]; simp [hf]) (by simp [AhbLine.HasText, (h5 _ hx).1]), .inl rfl⟩)
  | qualifier hd hx he =>
    obtain ⟨pre, lines, post, first, h1, h2, h3, h4, _, h5⟩ := C124_data_elements h hd
    obtain ⟨l, hl, h6, _⟩ := h5 _ hx _ he
    exact .inr (.inl ⟨_, hline (l := l) (by rw [h1]; simp [hl]) (by simp [AhbLine.HasText, h6]), .inl rfl⟩)
  | meaning hd hx he =>
    obtain ⟨pre, lines, post, first, h1, h2, h3, h4, _, h5⟩ := C124_data_elements h hd
    obtain ⟨l, hl, _, _, n, h6, h7⟩ := h5 _ hx _ he
    exact .inr (.inl ⟨n, hline (l := l) (by rw [h1]; simp [hl]) (by simp [AhbLine.HasText, h6]), .inr h7⟩)
  | entryExpression hd hx he =>
    obtain ⟨pre, lines, post, first, h1, h2, h3, h4, _, h5⟩ := C124_data_elements h hd
    obtain ⟨l, hl, _, h6, _⟩ := h5 _ hx _ he
    exact .inr (.inl ⟨_, hline (l := l) (by rw [h1]; simp [hl]) (by simp [AhbLine.HasText, h6]), .inl rfl⟩)

/-! ## lone surrogates -/

/-- **C124 (printed locations)** a printed location holds no lone surrogate, whatever the texts of the location: `repr` escapes all characters
that are not printable. -/
theorem C124_printed_locations (printable : Char → Bool) (hp : ∀ c : Char, 0x10F800 ≤ c.toNat → printable c = false) (loc : AhbLocation) :
    ¬ HoldsLone (loc.str printable) := plain_str hp loc

/-- **C124 (lone surrogates)** if the text of the MAUS holds a lone surrogate, one of its texts does, and so does a text of the flat AHB. -/
theorem C124_lone_surrogates {root : Xml} {posStr : AhbLocation → PyStr} {flat flat' : FlatAhb} {sgh : Sgh} {deep : DeepAhb}
    (hroot : PlainTemplate root) (hpos : ∀ loc, ¬ HoldsLone (posStr loc))
    (h : toDeepAhb (migLookup root) posStr flat sgh = .ok (flat', deep)) (hl : HoldsLone (mausText deep)) :
    (∃ t, MausText deep t ∧ HoldsLone t) ∧ ∃ t, FlatText flat t ∧ HoldsLone t := by
  have h1 : ∃ t, MausText deep t ∧ HoldsLone t :=
    Classical.byContradiction fun hn => plain_mausText (fun t ht hlt => hn ⟨t, ht, hlt⟩) hl
  refine ⟨h1, ?_⟩
  obtain ⟨t, ht, hlt⟩ := h1
  rcases C124_texts h ht with rfl | ⟨s, hs, rfl | rfl⟩ | ⟨path, es, hlead⟩ | ⟨_, loc, _, rfl⟩
  · exact absurd hlt (not_holdsLone_of (by decide))
  · exact ⟨t, hs, hlt⟩
  · exact ⟨s, hs, Classical.byContradiction fun hn => plain_trim hn hlt⟩
  · exact absurd hlt (plain_leadsTo hroot hlead)
  · exact absurd hlt (hpos loc)

/-- **C124 (JSON texts)** the strings in a JSON text that holds neither lone surrogates nor escapes of surrogates hold none either: so do all
texts of the flat AHB that is read from it. -/
theorem C124_flat_texts {text : PyStr} {flat : FlatAhb} (hno : NoSurrogateEscape text) (hl : ¬ HoldsLone text)
    (h : (jsonLoadsLone text).bind FlatAhb.load = .ok flat) {t : PyStr} (ht : FlatText flat t) : ¬ HoldsLone t := by
  rw [jsonLoadsLone_plain _ hno] at h
  obtain ⟨j, ⟨w, t', w', rfl, _, hv, _⟩, hd⟩ := (C85_flat_texts _ _).1 h
  exact describesFlat_texts hd (plain_value hv (PlainJson.infix ⟨hno, hl⟩)) t ht

/-- **C124 (runs of the tool)** if the file of the flat AHB holds neither lone surrogates nor escapes of surrogates, a run that fails has
changed no file and no directory, unless the device is full. (The file of the hierarchy, the output file and the file to check may hold what they like.) -/
theorem C124_failed_run_changes_nothing (env : CliEnv) (o : CliOptions) (w : FileWorld) (e : Exc)
    (h : (cliCommandLone env o w).1 = .error e)
    (hflat : ∀ t, TextAt env.files w.fs o.flatAhbPath t → NoSurrogateEscape t ∧ ¬ HoldsLone t)
    (hroot : ∀ b root, env.parseXml b = .ok root → PlainTemplate root) (hpos : ∀ loc, ¬ HoldsLone (env.posStr loc)) :
    (cliCommandLone env o w).2.fs = w.fs ∨
    ∃ p n maus, o.outputPath = some p ∧ o.checkPath = none ∧ env.files.space = some n ∧ GeneratesLone env w.fs o maus ∧
      n < (encodeUtf8 (mausText maus)).length ∧ e = .other := by
  refine C123_failed_run_changes_nothing_partial env o w e h fun maus hg hl => ?_
  obtain ⟨text, flat, _, _, _, root, _, h1, h2, _, _, _, h3, h4⟩ := hg
  obtain ⟨_, t, ht, hlt⟩ := C124_lone_surrogates (hroot _ _ h3) hpos h4 hl
  exact C124_flat_texts (hflat _ h1).1 (hflat _ h1).2 h2 ht hlt

/-! ## examples -/

/-- the example of C123: the lone surrogate in the text of the MAUS comes from the description of the flat AHB -/
example : ∃ deep flat', toDeepAhb (migLookup exMig) exPosStr exLoneFlat exSgh = .ok (flat', deep) ∧ HoldsLone (mausText deep) ∧
    PlainTemplate exMig ∧ (∀ loc, ¬ HoldsLone (exPosStr loc)) ∧ ∃ t, FlatText exLoneFlat t ∧ HoldsLone t := by
  have hd : (toDeepAhb (migLookup exMig) exPosStr exLoneFlat exSgh).map (fun r => decide ((mausText r.2).any isStandIn = true)) = .ok true := by
    decide +kernel
  obtain ⟨⟨flat', deep⟩, h5, h6⟩ := ok_of_map hd
  obtain ⟨c, hc, hc'⟩ := List.any_eq_true.1 (of_decide_eq_true h6)
  have hl : HoldsLone (mausText deep) := ⟨c, hc, of_decide_eq_true hc'⟩
  have hr : PlainTemplate exMig := plainTemplate_of (by decide +kernel)
  have hp : ∀ loc, ¬ HoldsLone (exPosStr loc) := fun _ => by unfold exPosStr; exact not_holdsLone_of (by decide)
  exact ⟨deep, flat', h5, hl, hr, hp, (C124_lone_surrogates hr hp h5 hl).2⟩

/-- a segment and a data element that occur: the premises of `C124_segments`, `C124_data_elements` and `C124_texts` -/
example : ∃ deep flat' s de, toDeepAhb (migLookup exMig) exPosStr exFlatSchema exSgh = .ok (flat', deep) ∧ SegmentOccurs deep.lines s ∧
    DataElementOccurs deep.lines de ∧ MausText deep s.ahbExpression ∧ MausText deep de.dataElementId := by
  have hd : (toDeepAhb (migLookup exMig) exPosStr exFlatSchema exSgh).map
      (fun r => (groupAt? r.2.lines [0]).toList.any fun g => g.ownSegments.any fun s => !s.dataElements.isEmpty) = .ok true := by decide +kernel
  obtain ⟨⟨flat', deep⟩, h5, h6⟩ := ok_of_map hd
  obtain ⟨g, hg, hs⟩ := List.any_eq_true.1 h6
  obtain ⟨s, hs, hde⟩ := List.any_eq_true.1 hs
  have hde : s.dataElements ≠ [] := by simpa using hde
  obtain ⟨de, hde⟩ := List.exists_mem_of_ne_nil _ hde
  have hso : SegmentOccurs deep.lines s := ⟨g, ⟨[0], by simpa using hg⟩, hs⟩
  exact ⟨deep, flat', s, de, h5, hso, ⟨s, hso, hde⟩, .segmentExpression hso, .elementId ⟨s, hso, hde⟩⟩

/-- the text of the example AHB: the premises of `C124_flat_texts`
hold -/
example : ∃ flat, (jsonLoadsLone exPlainText).bind FlatAhb.load = .ok flat ∧ NoSurrogateEscape exPlainText ∧ ¬ HoldsLone exPlainText := by
  have hb : '\\' ∉ exPlainText := by
    have h : exPlainText.all (fun c => decide (c ≠ '\\')) = true := by decide +kernel
    intro hm
    exact of_decide_eq_true (List.all_eq_true.1 h _ hm) rfl
  refine ⟨exFlatSchema, ?_, noSurrogateEscape_of_not_mem hb, ?_⟩
  · rw [jsonLoadsLone_plain _ (noSurrogateEscape_of_not_mem hb)]
    exact C66_flat_text_round_trip _ _ exFlatSchema_constructed
  · have h : exPlainText.all (fun c => !isStandIn c) = true := by decide +kernel
    exact not_holdsLone_of fun c hc => by simpa using List.all_eq_true.1 h c hc

/-- a failing run: there is no flat AHB that could be read -/
example : ∃ e, (cliCommandLone exCliEnv (exOptions none (some exOut)) ⟨exFsWith (encodeUtf8 py!"{}") (encodeUtf8 py!"{}") [], []⟩).1 = .error e ∧
    (cliCommandLone exCliEnv (exOptions none (some exOut)) ⟨exFsWith (encodeUtf8 py!"{}") (encodeUtf8 py!"{}") [], []⟩).2.fs =
      exFsWith (encodeUtf8 py!"{}") (encodeUtf8 py!"{}") [] := by
  have hf : ((cliCommandLone exCliEnv (exOptions none (some exOut)) ⟨exFsWith (encodeUtf8 py!"{}") (encodeUtf8 py!"{}") [], []⟩).1.toOption).isNone
      = true := by decide +kernel
  rcases hr : (cliCommandLone exCliEnv (exOptions none (some exOut)) ⟨exFsWith (encodeUtf8 py!"{}") (encodeUtf8 py!"{}") [], []⟩).1 with e | u
  swap
  · rw [hr] at hf; cases hf
  refine ⟨e, rfl, ?_⟩
  refine (C124_failed_run_changes_nothing exCliEnv _ _ e hr ?_ ?_ ?_).resolve_right ?_
  · rintro t ⟨b, ⟨hb, _⟩, hd⟩
    have hb' : b = encodeUtf8 py!"{}" := (Option.some.inj hb).symm
    rw [hb', show decodeUtf8 (encodeUtf8 py!"{}") = .ok py!"{}" from by decide +kernel] at hd
    cases hd
    exact ⟨noSurrogateEscape_of_not_mem (by decide), not_holdsLone_of (by decide)⟩
  · intro b root hb
    cases hb
    exact plainTemplate_of (by decide +kernel)
  · exact fun _ => (not_holdsLone_of (by decide) : ¬ HoldsLone py!"position")
  · rintro ⟨_, n, _, _, _, hn, _⟩
    cases hn

end Verif
