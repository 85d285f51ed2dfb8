import Verif.Spec.MigInit
import Verif.Props.MigText
import Verif.Proofs.RegexLang
import Verif.Proofs.White
import Verif.Proofs.CsvText
import Verif.Proofs.FileText
/-!
# C106 MIGs as strings and as files
-/

namespace Verif
open Re

/-- the pattern without its anchor -/
private def encodingBody : Re :=
  .seq (.grp 1 (.seq (.str py!"<?xml") (.plus (.cls fun c => c != '>')))) (.seq (.plus (.cls isSpace))
    (.seq (.str py!"encoding") (.seq (.star true (.cls isSpace)) (.seq (.chr '=') (.seq (.star true (.cls isSpace))
      (.seq (.cls fun c => c == '"' || c == '\'') (.seq (.star true (.cls fun c => c != '"' && c != '\''))
        (.seq (.cls fun c => c == '"' || c == '\'') (.grp 2 (.alt (.seq (.star true (.cls isSpace)) (.str py!"?>")) .eps))))))))))

private theorem encodingBody_plain : Plain encodingBody :=
  ⟨⟨plain_str _, trivial, trivial⟩, ⟨trivial, trivial⟩, plain_str _, trivial, trivial, trivial, trivial, trivial, trivial,
    ⟨trivial, plain_str _⟩, trivial⟩

private theorem encodingRe_iff (s : PyStr) :
    (encodingDeclarationRe.pyMatch s).isSome = true ↔ ∃ w rest, s = w ++ rest ∧ Lang encodingBody w := by
  rw [pyMatch_isSome]
  constructor
  · rintro ⟨t, ht⟩
    obtain ⟨u, hu, ht⟩ := mem_seq.1 ht
    obtain ⟨-, rfl⟩ := mem_bol.1 hu
    obtain ⟨w, h1, h2⟩ := (run_lang encodingBody encodingBody_plain { pos := 0, rest := s } t.rest).1 ⟨t, ht, rfl⟩
    exact ⟨w, _, h1, h2⟩
  · rintro ⟨w, rest, h1, h2⟩
    obtain ⟨t, ht, -⟩ := (run_lang encodingBody encodingBody_plain { pos := 0, rest := s } rest).2 ⟨w, h1, h2⟩
    exact ⟨t, mem_seq.2 ⟨_, mem_bol.2 ⟨rfl, rfl⟩, ht⟩⟩

private theorem quote_iff {c : Char} : (c == '"' || c == '\'') = true ↔ c ∈ ['"', '\''] := by simp

theorem mentionsEncoding_iff (s : PyStr) : (encodingDeclarationRe.pyMatch s).isSome = true ↔ MentionsEncoding s := by
  rw [encodingRe_iff]
  constructor
  · rintro ⟨w, rest, rfl, hw⟩
    obtain ⟨_, _, rfl, ⟨_, a, rfl, h0, ha⟩, w0, _, rfl, hw0, _, _, rfl, he, w1, _, rfl, hw1, _, _, rfl, heq, w2, _, rfl, hw2,
      _, _, rfl, ⟨q, rfl, hq⟩, e, _, rfl, hev, _, tail, rfl, ⟨q', rfl, hq'⟩, -⟩ := hw
    rw [lang_str] at h0 he
    rw [lang_chr] at heq
    rw [lang_plus_cls] at ha hw0
    rw [lang_star_cls] at hw1 hw2 hev
    subst h0 he heq
    refine ⟨a, w0, w1, w2, e, tail ++ rest, q, q', by simp, ha.1, fun h => ?_, hw0.1, fun c hc => ?_, quote_iff.1 hq, quote_iff.1 hq',
      fun h => ?_, fun h => ?_⟩
    · simpa using ha.2 _ h
    · simp only [List.mem_append] at hc
      rcases hc with (hc | hc) | hc
      · exact mem_whiteSpace.2 (hw0.2 c hc)
      · exact mem_whiteSpace.2 (hw1 c hc)
      · exact mem_whiteSpace.2 (hw2 c hc)
    · simpa using hev _ h
    · simpa using hev _ h
  · rintro ⟨a, w0, w1, w2, e, rest, q, q', rfl, ha, ha', hw0, hw, hq, hq', he1, he2⟩
    refine ⟨py!"<?xml" ++ a ++ w0 ++ py!"encoding" ++ w1 ++ '=' :: w2 ++ q :: e ++ [q'], rest, by simp, ?_⟩
    have hs : ∀ c, c ∈ w0 ∨ c ∈ w1 ∨ c ∈ w2 → isSpace c = true := by
      intro c hc
      refine mem_whiteSpace.1 (hw c ?_)
      simp only [List.mem_append]
      tauto
    refine ⟨py!"<?xml" ++ a, _, ?_, ⟨_, _, rfl, lang_str.2 rfl, lang_plus_cls.2 ⟨ha, fun c hc => ?_⟩⟩,
      w0, py!"encoding" ++ (w1 ++ ('=' :: (w2 ++ (q :: (e ++ [q']))))), rfl,
      lang_plus_cls.2 ⟨hw0, fun c hc => hs c (.inl hc)⟩, _, _, rfl, lang_str.2 rfl, w1, _, rfl, lang_star_cls.2 fun c hc => hs c (.inr (.inl hc)),
      ['='], _, rfl, lang_chr.2 rfl, w2, _, rfl, lang_star_cls.2 fun c hc => hs c (.inr (.inr hc)), [q], _, rfl, ⟨q, rfl, quote_iff.2 hq⟩,
      e, [q'], rfl, lang_star_cls.2 fun c hc => ?_, [q'], [], rfl, ⟨q', rfl, quote_iff.2 hq'⟩, .inr rfl⟩
    · simp
    · have : c ≠ '>' := fun h => ha' (h ▸ hc)
      simpa using this
    · have h1 : c ≠ '"' := fun h => he1 (h ▸ hc)
      have h2 : c ≠ '\'' := fun h => he2 (h ▸ hc)
      simp [h1, h2]

private theorem attVal_plain {q : Char} {t v : PyStr} (h : XmlAttVal q t v) (ha : '&' ∉ t) (hb : ' ' ∉ v) : t = v := by
  induction h with
  | nil => rfl
  | blank h _ _ => simp at hb
  | char hc h _ ih => rw [ih (fun h' => ha (by simp [h'])) (fun h' => hb (by simp [h']))]
  | ref h _ _ => cases h <;> simp at ha

private theorem blank_white {b : PyStr} (h : XmlBlank b) : ∀ c ∈ b, c ∈ whiteSpace := by
  intro c hc
  rcases h c hc with rfl | rfl | rfl | rfl <;> decide

private theorem blank_not {b : PyStr} (h : XmlBlank b) {c : Char} (hc : c ≠ ' ' ∧ c ≠ '\t' ∧ c ≠ '\n' ∧ c ≠ '\r') : c ∉ b := by
  intro hm
  rcases h c hm with h | h | h | h
  · exact hc.1 h
  · exact hc.2.1 h
  · exact hc.2.2.1 h
  · exact hc.2.2.2 h

private theorem version_not {v : PyStr} (h : XmlVersion v) {c : Char} (hc : c ∉ py!"0123456789.") : c ∉ v := by
  obtain ⟨ds, rfl, -, hd⟩ := h
  intro hm
  rcases List.mem_append.1 hm with hm | hm
  · exact hc (by revert hm; simp only [List.mem_cons, List.not_mem_nil]; tauto)
  · have := hd c hm
    exact hc (by revert this; simp only [List.mem_cons, List.not_mem_nil]; tauto)

private theorem encoding_not {e : PyStr} (h : XmlEncoding e) {c : Char}
    (hc : c ∉ capitals ++ smallLetters ++ py!"0123456789._-") : c ∉ e := by
  obtain ⟨d, t, rfl, hd, ht⟩ := h
  intro hm
  rcases List.mem_cons.1 hm with rfl | hm
  · exact hc (List.mem_append_left _ hd)
  · exact hc (ht c hm)

theorem mentions_of_declares {text e : PyStr} (h : DeclaresEncoding text e) : MentionsEncoding text := by
  obtain ⟨as, b, v, sta, rest, rfl, ha, hb, hamp, hv, he⟩ := h
  cases ha with
  | @cons b0 b1 b2 _ t _ q r _ h0 hne h1 h2 hn hq hval hr =>
    cases hr with
    | @cons c0 c1 c2 _ t' _ q' r' _ g0 gne g1 g2 gn gq gval gr =>
      have ht : t = v := attVal_plain hval (fun h => hamp (by simp [h])) (version_not hv (by decide))
      have ht' : t' = e := attVal_plain gval (fun h => hamp (by simp [h])) (encoding_not he (by decide))
      subst ht ht'
      refine ⟨b0 ++ py!"version" ++ b1 ++ '=' :: b2 ++ q :: t ++ [q], c0, c1, c2, t', r' ++ b ++ py!"?>" ++ rest, q', q', by simp, by simp,
        ?_, gne, ?_, by simpa using gq, by simpa using gq, encoding_not he (by decide), encoding_not he (by decide)⟩
      · have hq' : '>' ≠ q := by rcases hq with rfl | rfl <;> decide
        have n0 := blank_not h0 (c := '>') (by decide)
        have n1 := blank_not h1 (c := '>') (by decide)
        have n2 := blank_not h2 (c := '>') (by decide)
        have nv := version_not hv (c := '>') (by decide)
        simp [n0, n1, n2, nv, hq']
      · intro c hc
        simp only [List.mem_append] at hc
        rcases hc with (hc | hc) | hc
        · exact blank_white g0 c hc
        · exact blank_white g1 c hc
        · exact blank_white g2 c hc

private theorem append_gt {a b c d : PyStr} (h : a ++ '>' :: b = c ++ d) (hc : '>' ∉ c) : c <+: a := by
  induction c generalizing a with
  | nil => exact List.nil_prefix
  | cons x c ih =>
    cases a with
    | nil =>
      simp only [List.nil_append, List.cons_append, List.cons.injEq] at h
      exact absurd (by simp [← h.1]) hc
    | cons y a =>
      simp only [List.cons_append, List.cons.injEq] at h
      rw [h.1]
      exact List.cons_prefix_cons.2 ⟨rfl, ih h.2 (fun h' => hc (by simp [h']))⟩

theorem not_mentions_of_version {text : PyStr} (h : DeclaresVersionOnly text) : ¬ MentionsEncoding text := by
  obtain ⟨as, b, v, sta, rest, rfl, ha, hb, hamp, hv, hs⟩ := h
  rintro ⟨a, w, w1, w2, e, rest', q, q', heq, -, hgt, -, hw, -, -, -, -⟩
  have hq : ∀ {q : Char}, q = '"' ∨ q = '\'' → 'c' ≠ q := by rintro q (rfl | rfl) <;> decide
  -- no attribute of the declaration contains the letter c
  have hc : 'c' ∉ as := by
    cases ha with
    | @cons b0 b1 b2 _ t _ q r _ h0 hne h1 h2 hn hq0 hval hr =>
      have ht : t = v := attVal_plain hval (fun h => hamp (by simp [h])) (version_not hv (by decide))
      subst ht
      have n0 := blank_not h0 (c := 'c') (by decide)
      have n1 := blank_not h1 (c := 'c') (by decide)
      have n2 := blank_not h2 (c := 'c') (by decide)
      have nv := version_not hv (c := 'c') (by decide)
      have nr : 'c' ∉ r := by
        cases hr with
        | nil => simp
        | @cons c0 c1 c2 name t' v' q' r' _ g0 gne g1 g2 gn gq gval gr =>
          have hv' : name = py!"standalone" ∧ 'c' ∉ v' ∧ ' ' ∉ v' ∧ r' = [] := by
            rcases hs with hs | hs | hs
            · cases hs
            · cases hs; cases gr; exact ⟨rfl, by decide, by decide, rfl⟩
            · cases hs; cases gr; exact ⟨rfl, by decide, by decide, rfl⟩
          obtain ⟨rfl, k1, k2, rfl⟩ := hv'
          have ht' : t' = v' := attVal_plain gval (fun h => hamp (by simp [h])) k2
          subst ht'
          have n0 := blank_not g0 (c := 'c') (by decide)
          have n1 := blank_not g1 (c := 'c') (by decide)
          have n2 := blank_not g2 (c := 'c') (by decide)
          simp [n0, n1, n2, k1, hq gq]
      simp [n0, n1, n2, nv, nr, hq hq0]
  have hsp : '>' ∉ w := fun h => absurd (hw '>' (by simp [h])) (by decide)
  have hp : py!"<?xml" ++ a ++ w ++ py!"encoding" <+: py!"<?xml" ++ as ++ b ++ py!"?" := by
    refine append_gt (b := rest) (d := w1 ++ '=' :: w2 ++ q :: e ++ q' :: rest') ?_ (by simp [hgt, hsp])
    simpa using heq
  have hm : 'c' ∈ py!"<?xml" ++ as ++ b ++ py!"?" := hp.subset (by simp)
  have := blank_not hb (c := 'c') (by decide)
  simp [hc, this] at hm

theorem universalNewlines_twice (s : PyStr) : universalNewlines (universalNewlines s) = universalNewlines s :=
  universalNewlines_id (universalNewlines_no_cr s)

theorem readXml_newlines (s : PyStr) : readXml (universalNewlines s) = readXml s := by
  have : parseXml (universalNewlines s) = parseXml s := by
    unfold parseXml
    by_cases h : ∃ t, s = '\ufeff' :: t
    · obtain ⟨t, rfl⟩ := h
      have hu : universalNewlines ('\ufeff' :: t) = '\ufeff' :: universalNewlines t := by
        simp [universalNewlines]
      rw [hu]
      simp [dropPrefix?, universalNewlines_twice]
    · have hd : ∀ u : PyStr, (¬ ∃ t, u = '\ufeff' :: t) → dropPrefix? ['\ufeff'] u = none := by
        intro u hu
        cases u with
        | nil => rfl
        | cons c u =>
          by_cases hc : c = '\ufeff'
          · exact absurd ⟨u, by rw [hc]⟩ hu
          · simp [dropPrefix?, Ne.symm hc]
      rw [hd s h, hd _ ?_]
      · simp [universalNewlines_twice]
      · rintro ⟨t, ht⟩
        cases s with
        | nil => simp [universalNewlines] at ht
        | cons c s =>
          by_cases hr : c = '\r'
          · subst hr
            cases s with
            | nil => simp [universalNewlines] at ht
            | cons d s => by_cases hd : d = '\n' <;> simp [universalNewlines, hd] at ht
          · have hu : universalNewlines (c :: s) = c :: universalNewlines s := by
              simp [universalNewlines, hr]
            rw [hu] at ht
            exact h ⟨s, by cases ht; rfl⟩
  rw [readXml, readXml, this]

theorem migInit_file (validUri : PyStr → Bool) (s : PyStr) : MigXmlReader.init validUri (.file (encodeUtf8 s)) = MigXmlReader.new validUri s := by
  simp only [MigXmlReader.init, decodeUtf8_encodeUtf8]
  rw [MigXmlReader.new, MigXmlReader.new, readXmlLxml, readXmlLxml, readXml_newlines]

/-! ## C106 -/

/-- **C106** a string is refused with a `ValueError` exactly if it begins with `<?xml` and mentions a quoted `encoding` before the
first `>`; every other string gives the same reader (or the same error) as a file with this text in UTF-8; what is neither a
string nor a path is refused. -/
theorem C106_str_or_file (validUri : PyStr → Bool) (s : PyStr) :
    (MigXmlReader.init validUri (.text s) = .error .valueError ↔ MentionsEncoding s) ∧
    (¬ MentionsEncoding s → MigXmlReader.init validUri (.text s) = MigXmlReader.init validUri (.file (encodeUtf8 s))) ∧
    MigXmlReader.init validUri .other = .error .valueError := by
  have hnew : MigXmlReader.new validUri s ≠ .error .valueError := by
    rw [MigXmlReader.new]
    cases hx : readXmlLxml validUri s with
    | error e => rw [readXmlLxml_error validUri hx]; intro h; cases h
    | ok x => intro h; cases h
  rw [migInit_file, ← mentionsEncoding_iff]
  refine ⟨?_, fun h => if_neg h, rfl⟩
  by_cases h : (encodingDeclarationRe.pyMatch s).isSome = true
  · exact ⟨fun _ => h, fun _ => if_pos h⟩
  · exact ⟨fun h' => absurd ((if_neg h).symm.trans h') hnew, fun h' => absurd h' h⟩

/-- **C106** a MIG whose XML declaration names its encoding cannot be given as a string, whatever follows. -/
theorem C106_declared_encoding (validUri : PyStr → Bool) {s e : PyStr} (h : DeclaresEncoding s e) : MigXmlReader.init validUri (.text s) = .error .valueError :=
  (C106_str_or_file validUri s).1.2 (mentions_of_declares h)

/-- **C106** a MIG without `<?xml` at its beginning, or with an XML declaration that names no encoding, can be given as a string
as well as as a file: the reader has the root element of the document, and there is none if the text is no document with correct namespaces. -/
theorem C106_no_declared_encoding (validUri : PyStr → Bool) {text s : PyStr} (h : ¬ py!"<?xml" <+: text ∨ DeclaresVersionOnly text) (hs : Normalised text s) :
    MigXmlReader.init validUri (.text text) = MigXmlReader.init validUri (.file (encodeUtf8 text)) ∧
    (∀ x, NsDocument validUri s x → ∃ r, MigXmlReader.init validUri (.text text) = .ok r ∧ r.original = x) ∧
    ((¬ ∃ x, NsDocument validUri s x) → MigXmlReader.init validUri (.text text) = .error .other) := by
  have hm : ¬ MentionsEncoding text := by
    rcases h with h | h
    · rintro ⟨a, w, w1, w2, e, rest, q, q', rfl, -⟩
      exact h ⟨a ++ w ++ py!"encoding" ++ w1 ++ '=' :: w2 ++ q :: e ++ q' :: rest, by simp⟩
    · exact not_mentions_of_version h
  have he := (C106_str_or_file validUri text).2.1 hm
  rw [he, migInit_file]
  exact ⟨rfl, fun x hx => ⟨_, migReader_new hs hx, rfl⟩, migReader_error hs⟩

private theorem plain_attVal {q : Char} : ∀ {v : PyStr}, (∀ c ∈ v, 32 ≤ c.toNat ∧ c.toNat < 128 ∧ c ∉ ['<', '&', q]) → XmlAttVal q v v
  | [], _ => .nil
  | c :: v, h => by
    obtain ⟨h1, h2, h3⟩ := h c (by simp)
    refine .char (.inr ⟨h1, by omega, by omega⟩) ?_ (plain_attVal fun d hd => h d (by simp [hd]))
    intro hm
    simp only [List.mem_cons, List.not_mem_nil, or_false] at hm h3
    rcases hm with rfl | rfl | rfl | hm
    · exact absurd h1 (by decide)
    · exact absurd h1 (by decide)
    · exact absurd h1 (by decide)
    · exact h3 hm

private theorem plain_attr {q c : Char} {n v rest : PyStr} {as : List (PyStr × PyStr)} (hq : q = '"' ∨ q = '\'')
    (hn : ∀ d ∈ c :: n, d ∈ smallLetters) (hv : ∀ c ∈ v, 32 ≤ c.toNat ∧ c.toNat < 128 ∧ c ∉ ['<', '&', q]) (hr : XmlAttrs rest as) :
    XmlAttrs (py!" " ++ (c :: n) ++ [] ++ '=' :: [] ++ q :: v ++ q :: rest) ((c :: n, v) :: as) := by
  have hname : XmlName (c :: n) := by
    refine ⟨c, n, rfl, fun d hd => .inl ?_, fun h => ?_⟩
    · have : ∀ d ∈ smallLetters, d ∈ py!"ABCDEFGHIJKLMNOPQRSTUVWXYZabcdefghijklmnopqrstuvwxyz_:0123456789-." := by decide
      exact this d (hn d hd)
    · have : ∀ d ∈ smallLetters, d ∉ py!"0123456789-." := by decide
      exact this c (hn c (by simp)) h
  exact .cons (b0 := py!" ") (b1 := []) (b2 := []) (by simp [XmlBlank]) (by simp) (by simp [XmlBlank]) (by simp [XmlBlank]) hname hq
    (plain_attVal hv) hr

example : DeclaresEncoding exMigText py!"utf-8" :=
  ⟨py!" version=\"1.0\" encoding=\"utf-8\"", [], py!"1.0", [], _, rfl,
    plain_attr (c := 'v') (n := py!"ersion") (v := py!"1.0") (.inl rfl) (by decide) (by decide)
      (plain_attr (c := 'e') (n := py!"ncoding") (v := py!"utf-8") (.inl rfl) (by decide) (by decide) .nil),
    by simp [XmlBlank], by decide, ⟨['0'], rfl, by decide, by decide⟩, ⟨'u', _, rfl, by decide, by decide⟩⟩

example : (MigXmlReader.init exUri (.text exMigText)).toOption.isNone ∧ (MigXmlReader.init exUri (.file (encodeUtf8 exMigText))).toOption.isSome := by
  decide +kernel

/-- the same text without the encoding -/
def exMigVersion : PyStr := py!"<?xml version='1.0'?><UTILMD/>"

example : DeclaresVersionOnly exMigVersion ∧ Normalised exMigVersion exMigVersion :=
  ⟨⟨py!" version='1.0'", [], py!"1.0", [], _, rfl,
    plain_attr (c := 'v') (n := py!"ersion") (v := py!"1.0") (.inr rfl) (by decide) (by decide) .nil,
    by simp [XmlBlank], by decide, ⟨['0'], rfl, by decide, by decide⟩, .inl rfl⟩, .inl ⟨rfl, by decide⟩⟩

example : (MigXmlReader.init exUri (.text exMigVersion)).toOption.isSome ∧ (MigXmlReader.init exUri (.text exMigLine)).toOption.isSome := by decide +kernel

/-- also refused: a processing instruction whose name begins with `xml` -/
example : MentionsEncoding py!"<?xml-stylesheet encoding='x'?><UTILMD/>" := (mentionsEncoding_iff _).1 (by decide +kernel)

end Verif
