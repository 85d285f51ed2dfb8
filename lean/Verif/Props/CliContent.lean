import Verif.Spec.CliContent
import Verif.Props.Cli
import Verif.Props.Content
import Verif.Props.JsonGrammar
import Verif.Props.MigText
import Verif.Model.XmlReading
/-!
# C86: the command line tool from file contents to file contents
-/

namespace Verif

/-- every text has one normalised form -/
theorem normalised_exists (text : PyStr) : ∃ s, Normalised text s := by
  by_cases h : ['﻿'] <+: text
  · obtain ⟨t, rfl⟩ := h
    exact ⟨_, .inr ⟨t, rfl, rfl⟩⟩
  · exact ⟨_, .inl ⟨rfl, h⟩⟩

theorem hasFlatAhb_iff {env : FileEnv} {fs : FsNode} {p : FsPath} {flat : FlatAhb} :
    HasFlatAhb env fs p flat ↔ ∃ text, TextAt env fs p text ∧ (jsonLoads text).bind FlatAhb.load = .ok flat := by
  simp only [HasFlatAhb, C85_flat_texts]
  exact ⟨fun ⟨t, j, h1, h2⟩ => ⟨t, h1, j, h2⟩, fun ⟨t, h1, j, h2⟩ => ⟨t, j, h1, h2⟩⟩

theorem hasHierarchy_iff {env : FileEnv} {fs : FsNode} {p : FsPath} {sgh : Sgh} :
    HasHierarchy env fs p sgh ↔ ∃ text, TextAt env fs p text ∧ (jsonLoads text).bind Sgh.load = .ok sgh := by
  simp only [HasHierarchy, C85_hierarchy_texts]
  exact ⟨fun ⟨t, j, h1, h2⟩ => ⟨t, h1, j, h2⟩, fun ⟨t, h1, j, h2⟩ => ⟨t, j, h1, h2⟩⟩

theorem stored_iff {env : FileEnv} {fs : FsNode} {p : FsPath} {maus : DeepAhb} : Stored env fs p maus ↔ HasDeepAhb env fs p maus := by
  simp only [Stored, HasDeepAhb, C85_deep_texts]
  exact ⟨fun ⟨t, h1, j, h2⟩ => ⟨t, j, h1, h2⟩, fun ⟨t, j, h1, h2⟩ => ⟨t, h1, j, h2⟩⟩

theorem hasXml_iff {validUri : PyStr → Bool} {env : FileEnv} {fs : FsNode} {p : FsPath} {root : Xml} :
    HasXml validUri env fs p root ↔ ∃ content, ReadableAt env fs p content ∧ readXmlBytes validUri content = .ok root := by
  constructor
  · rintro ⟨text, s, ⟨content, hr, hd⟩, hs, hx⟩
    refine ⟨content, hr, ?_⟩
    rw [readXmlBytes, hd]
    exact (readXmlLxml_iff validUri hs root).2 hx
  · rintro ⟨content, hr, hx⟩
    rw [readXmlBytes] at hx
    cases hd : decodeUtf8 content with
    | error e => rw [hd] at hx; cases hx
    | ok text =>
      rw [hd] at hx
      obtain ⟨s, hs⟩ := normalised_exists text
      exact ⟨text, s, ⟨content, hr, hd⟩, hs, (readXmlLxml_iff validUri hs root).1 hx⟩

/-- **C86** which MAUS the command line tool generates, in terms of the contents of its input files: a JSON document that describes
a flat AHB, a JSON document that describes a segment group hierarchy, and an XML document. -/
theorem C86_inputs (validUri : PyStr → Bool) (env : CliEnv) (hx : env.parseXml = readXmlBytes validUri) (fs : FsNode) (o : CliOptions) (maus : DeepAhb) :
    Generates env fs o maus ↔ ∃ flat sgh mig flat', HasFlatAhb env.files fs o.flatAhbPath flat ∧
      HasHierarchy env.files fs o.sghPath sgh ∧ HasXml validUri env.files fs o.templatePath mig ∧
      toDeepAhb (migLookup mig) env.posStr flat sgh = .ok (flat', maus) := by
  simp only [Generates, hasFlatAhb_iff, hasHierarchy_iff, hasXml_iff, hx]
  constructor
  · rintro ⟨ft, flat, st, sgh, tp, root, flat', h1, h2, h3, h4, h5, h6, h7⟩
    exact ⟨flat, sgh, root, flat', ⟨ft, h1, h2⟩, ⟨st, h3, h4⟩, ⟨tp, h5, h6⟩, h7⟩
  · rintro ⟨flat, sgh, root, flat', ⟨ft, h1, h2⟩, ⟨st, h3, h4⟩, ⟨tp, h5, h6⟩, h7⟩
    exact ⟨ft, flat, st, sgh, tp, root, flat', h1, h2, h3, h4, h5, h6, h7⟩

theorem migLookup_same {x y : Xml} (h : SameMig x y) : migLookup x = migLookup y := by
  funext l
  unfold migLookup getEdifactStack
  rcases getElement_same h l with ⟨e, h1, h2⟩ | ⟨a, b, h1, h2, hp, -⟩
  · rw [h1, h2]; rfl
  · rw [h1, h2]
    show (elementToEdifactStack x a.path).map _ = (elementToEdifactStack y b.path).map _
    rw [elementToEdifactStack, elementToEdifactStack, hp, stackLoop_same _ h]

theorem dumpSegments_reset (s : Option (List Segment)) : dumpSegments (s.map (List.map Segment.resetAhbLineIndex)) = dumpSegments s := by
  cases s with
  | none => rfl
  | some l => simp only [dumpSegments, Option.map_some, List.map_map]; rfl

namespace SegmentGroup
mutual
theorem dump_reset : ∀ g : SegmentGroup, dump (resetAhbLineIndex g) = dump g
  | mk d e i s gs => by rw [resetAhbLineIndex, dump, dump, dumpSegments_reset, dumpOpt_reset gs]
theorem dumpOpt_reset : ∀ gs : Option (List SegmentGroup), dumpOpt (resetOpt gs) = dumpOpt gs
  | none => rfl
  | some l => by rw [resetOpt, dumpOpt, dumpOpt, dumpList_reset l]
theorem dumpList_reset : ∀ l : List SegmentGroup, dumpList (resetList l) = dumpList l
  | [] => rfl
  | g :: l => by rw [resetList, dumpList, dumpList, dump_reset g, dumpList_reset l]
end
end SegmentGroup

theorem deepDump_reset (a : DeepAhb) : a.resetAhbLineIndex.dump = a.dump := by
  simp only [DeepAhb.dump, DeepAhb.resetAhbLineIndex, List.map_map]
  rw [show SegmentGroup.dump ∘ SegmentGroup.resetAhbLineIndex = SegmentGroup.dump from funext SegmentGroup.dump_reset]

/-- deep AHBs that are equal up to line indices are written alike -/
theorem dump_equalUpToIndex {a b : DeepAhb} (h : EqualUpToIndex a b) : a.dump = b.dump := by
  rw [← deepDump_reset a, ← deepDump_reset b, (C27_equal_up_to_index a b).2 h]

theorem textAt_unique {env : FileEnv} {fs : FsNode} {p : FsPath} {t t' : PyStr} (h : TextAt env fs p t) (h' : TextAt env fs p t') :
    t = t' := by
  obtain ⟨c, ⟨h1, _⟩, h2⟩ := h
  obtain ⟨c', ⟨h1', _⟩, h2'⟩ := h'
  rw [h1] at h1'
  cases h1'
  rw [h2] at h2'
  cases h2'
  rfl

theorem hasFlatAhb_unique {env : FileEnv} {fs : FsNode} {p : FsPath} {a b : FlatAhb} (h : HasFlatAhb env fs p a) (h' : HasFlatAhb env fs p b) :
    a = b := by
  rw [hasFlatAhb_iff] at h h'
  obtain ⟨t, ht, hl⟩ := h
  obtain ⟨t', ht', hl'⟩ := h'
  rw [textAt_unique ht' ht, hl] at hl'
  exact Except.ok.inj hl'

theorem hasHierarchy_unique {env : FileEnv} {fs : FsNode} {p : FsPath} {a b : Sgh} (h : HasHierarchy env fs p a)
    (h' : HasHierarchy env fs p b) : a = b := by
  rw [hasHierarchy_iff] at h h'
  obtain ⟨t, ht, hl⟩ := h
  obtain ⟨t', ht', hl'⟩ := h'
  rw [textAt_unique ht' ht, hl] at hl'
  exact Except.ok.inj hl'

theorem hasXml_unique {validUri : PyStr → Bool} {env : FileEnv} {fs : FsNode} {p : FsPath} {a b : Xml} (h : HasXml validUri env fs p a) (h' : HasXml validUri env fs p b) : a = b := by
  rw [hasXml_iff] at h h'
  obtain ⟨c, ⟨hc, _⟩, hl⟩ := h
  obtain ⟨c', ⟨hc', _⟩, hl'⟩ := h'
  rw [hc] at hc'
  cases hc'
  rw [hl] at hl'
  exact Except.ok.inj hl'

/-- **C86** inputs with the same content: either there is a MAUS for both of them, and the two are equal up to line indices, or for
neither. -/
theorem C86_same_maus (validUri : PyStr → Bool) (env : CliEnv) (hx : env.parseXml = readXmlBytes validUri) {fs fs' : FsNode} {o o' : CliOptions} (h : SameInputs validUri env fs fs' o o') :
    (∃ maus maus', Generates env fs o maus ∧ Generates env fs' o' maus' ∧ EqualUpToIndex maus maus') ∨
    (∀ maus, ¬ Generates env fs o maus) ∧ (∀ maus, ¬ Generates env fs' o' maus) := by
  obtain ⟨flat, flat', sgh, mig, mig', hf, hf', hff, hs, hs', hm, hm', hmm⟩ := h
  have hso := C79_equal_up_to_index (migLookup mig) env.posStr sgh hff
  cases h1 : toDeepAhb (migLookup mig) env.posStr flat sgh with
  | ok r =>
    cases h2 : toDeepAhb (migLookup mig) env.posStr flat' sgh with
    | ok r' =>
      rw [h1, h2] at hso
      refine .inl ⟨r.2, r'.2, (C86_inputs validUri env hx fs o _).2 ⟨flat, sgh, mig, r.1, hf, hs, hm, h1⟩,
        (C86_inputs validUri env hx fs' o' _).2 ⟨flat', sgh, mig', r'.1, hf', hs', hm', ?_⟩, hso⟩
      rw [← migLookup_same hmm]
      exact h2
    | error e => rw [h1, h2] at hso; exact hso.elim
  | error e =>
    cases h2 : toDeepAhb (migLookup mig) env.posStr flat' sgh with
    | ok r' => rw [h1, h2] at hso; exact hso.elim
    | error e' =>
      refine .inr ⟨fun maus hg => ?_, fun maus hg => ?_⟩
      · obtain ⟨a, b, c, d, g1, g2, g3, g4⟩ := (C86_inputs validUri env hx fs o _).1 hg
        rw [hasFlatAhb_unique g1 hf, hasHierarchy_unique g2 hs, hasXml_unique g3 hm, h1] at g4
        cases g4
      · obtain ⟨a, b, c, d, g1, g2, g3, g4⟩ := (C86_inputs validUri env hx fs' o' _).1 hg
        rw [hasFlatAhb_unique g1 hf', hasHierarchy_unique g2 hs', hasXml_unique g3 hm', ← migLookup_same hmm, h2] at g4
        cases g4

/-- **C86** two runs with output paths whose inputs have the same content: if click accepts the paths and the MAUS can be written in both
cases, then both succeed or none; and if both succeed, then the same bytes are written. -/
theorem C86_same_output (validUri : PyStr → Bool) (env : CliEnv) (hx : env.parseXml = readXmlBytes validUri) (o o' : CliOptions) (w w' : FileWorld) (p p' : FsPath)
    (hc : o.checkPath = none) (ho : o.outputPath = some p) (hc' : o'.checkPath = none) (ho' : o'.outputPath = some p')
    (h : SameInputs validUri env w.fs w'.fs o o') :
    (PathsOk env.files w.fs o → PathsOk env.files w'.fs o' → (∀ n, CanWrite env.files w.fs p n ↔ CanWrite env.files w'.fs p' n) →
      ((cliCommand env o w).1 = .ok () ↔ (cliCommand env o' w').1 = .ok ())) ∧
    ((cliCommand env o w).1 = .ok () → (cliCommand env o' w').1 = .ok () →
      ∃ content, (cliCommand env o w).2.fs.contentAt p = some content ∧ (cliCommand env o' w').2.fs.contentAt p' = some content) := by
  obtain ⟨g1, g2, _⟩ := C58_output env o w p hc ho
  obtain ⟨g1', g2', _⟩ := C58_output env o' w' p' hc' ho'
  rcases C86_same_maus validUri env hx h with ⟨maus, maus', hg, hg', he⟩ | ⟨hn, hn'⟩
  · have hb : mausBytes maus = mausBytes maus' := by rw [mausBytes, mausBytes, dump_equalUpToIndex he]
    refine ⟨fun hp hp' hw => ?_, fun h1 h2 => ?_⟩
    · rw [g1, g1']
      constructor
      · rintro ⟨_, m, hm, hcan⟩
        rw [generates_unique hm hg, hw, hb] at hcan
        exact ⟨hp', maus', hg', hcan⟩
      · rintro ⟨_, m, hm, hcan⟩
        rw [generates_unique hm hg', ← hw, ← hb] at hcan
        exact ⟨hp, maus, hg, hcan⟩
    · obtain ⟨m, hm, hc1⟩ := g2 h1
      obtain ⟨m', hm', hc2⟩ := g2' h2
      rw [generates_unique hm hg] at hc1
      rw [generates_unique hm' hg', ← dump_equalUpToIndex he] at hc2
      exact ⟨_, hc1, hc2⟩
  · refine ⟨fun hp hp' hw => ?_, fun h1 h2 => ?_⟩
    · rw [g1, g1']
      exact ⟨fun ⟨_, m, hm, _⟩ => absurd hm (hn m), fun ⟨_, m, hm, _⟩ => absurd hm (hn' m)⟩
    · obtain ⟨m, hm, _⟩ := g2 h1
      exact absurd hm (hn m)

/-- **C86** two runs with check paths whose inputs have the same content, and whose stored deep AHBs are equal up to line indices: if
click accepts the paths, then both succeed or none. -/
theorem C86_same_check (validUri : PyStr → Bool) (env : CliEnv) (hx : env.parseXml = readXmlBytes validUri) (o o' : CliOptions) (w w' : FileWorld) (p p' : FsPath)
    (hc : o.checkPath = some p) (ho : o.outputPath = none) (hc' : o'.checkPath = some p') (ho' : o'.outputPath = none)
    (h : SameInputs validUri env w.fs w'.fs o o') {expected expected' : DeepAhb} (hs : HasDeepAhb env.files w.fs p expected)
    (hs' : HasDeepAhb env.files w'.fs p' expected') (he : EqualUpToIndex expected expected')
    (hp : PathsOk env.files w.fs o) (hp' : PathsOk env.files w'.fs o') :
    (cliCommand env o w).1 = .ok () ↔ (cliCommand env o' w').1 = .ok () := by
  have key : ∀ a b : DeepAhb, EqualUpToIndex a b ↔ a.resetAhbLineIndex = b.resetAhbLineIndex := fun a b => (C27_equal_up_to_index a b).symm
  have uniq : ∀ {fs : FsNode} {q : FsPath} {a b : DeepAhb}, Stored env.files fs q a → Stored env.files fs q b → a = b := by
    rintro fs q a b ⟨t, ht, hl⟩ ⟨t', ht', hl'⟩
    rw [textAt_unique ht' ht, hl] at hl'
    exact Except.ok.inj hl'
  rw [(C58_check env o w p hc ho).2.2.1, (C58_check env o' w' p' hc' ho').2.2.1]
  rw [← stored_iff] at hs hs'
  rw [key] at he
  rcases C86_same_maus validUri env hx h with ⟨maus, maus', hg, hg', hm⟩ | ⟨hn, hn'⟩
  · rw [key] at hm
    constructor
    · rintro ⟨_, m, e, h1, h2, h3⟩
      rw [generates_unique h1 hg, uniq h2 hs, key, he, hm] at h3
      exact ⟨hp', maus', expected', hg', hs', (key _ _).2 h3⟩
    · rintro ⟨_, m, e, h1, h2, h3⟩
      rw [generates_unique h1 hg', uniq h2 hs', key, ← he, ← hm] at h3
      exact ⟨hp, maus, expected, hg, hs, (key _ _).2 h3⟩
  · exact ⟨fun ⟨_, m, _, h1, _⟩ => absurd h1 (hn m), fun ⟨_, m, _, h1, _⟩ => absurd h1 (hn' m)⟩

/-! ## examples -/

/-- the environment with the XML parser -/
def exCliXml : CliEnv := { files := exFiles, parseXml := readXmlBytes exUri, posStr := exPosStr }

/-- the example MIG as a file with a comment -/
def exMigFile : PyStr := py!"<?xml version='1.0'?>\n<!-- MIG -->\n" ++ exMig.tostring

/-- the files of the example, with the MIG as a text -/
def exFsXml (flat : FlatAhb) (st : JsonStyle) (mig : PyStr) : FsNode :=
  .dir [(py!"data", .dir [
    (py!"flat.json", .file (encodeUtf8 (jsonDumps st flat.dump))),
    (py!"sgh.json", .file (encodeUtf8 (jsonDumps st exSgh.dump))),
    (py!"utilmd.template", .file (encodeUtf8 mig))])]

/-- the example AHB with other line numbers and conditions -/
def exFlatOther : FlatAhb := { exFlatSchema with lines := exFlatSchema.lines.map fun l =>
  { l with index := l.index.map (· + 100), conditions := some py!"[1] Wenn", guid := none } }

theorem exFlatOther_constructed : exFlatOther.Constructed := by
  refine ⟨by decide +kernel, by decide +kernel, ?_⟩
  have h : ∀ l ∈ exFlatOther.lines, AhbLine.new l = .ok l ∧ l.guid = none := by decide +kernel
  intro l hl
  obtain ⟨h1, h2⟩ := h l hl
  refine ⟨h1, fun g hg => ?_⟩
  rw [h2] at hg
  cases hg

theorem exFlatOther_same : exFlatSchema.SameButNumbers exFlatOther := by
  refine ⟨rfl, ?_⟩
  rw [exFlatOther, List.forall₂_map_right_iff, List.forall₂_same]
  exact fun _ _ => ⟨rfl, rfl, rfl, rfl, rfl, rfl, rfl, rfl⟩

theorem exFsXml_flat {flat : FlatAhb} (h : flat.Constructed) (st : JsonStyle) (mig : PyStr) :
    HasFlatAhb exFiles (exFsXml flat st mig) [py!"data", py!"flat.json"] flat :=
  hasFlatAhb_iff.2 ⟨_, ⟨_, ⟨rfl, rfl⟩, decodeUtf8_jsonDumps _ _⟩, C66_flat_text_round_trip _ flat h⟩

theorem exFsXml_sgh (flat : FlatAhb) (st : JsonStyle) (mig : PyStr) :
    HasHierarchy exFiles (exFsXml flat st mig) [py!"data", py!"sgh.json"] exSgh :=
  hasHierarchy_iff.2 ⟨_, ⟨_, ⟨rfl, rfl⟩, decodeUtf8_jsonDumps _ _⟩, C66_sgh_text_round_trip _ _⟩

theorem exFsXml_mig (flat : FlatAhb) (st : JsonStyle) {mig : PyStr} {x : Xml} (h : readXmlLxml exUri (universalNewlines mig) = .ok x) :
    HasXml exUri exFiles (exFsXml flat st mig) [py!"data", py!"utilmd.template"] x :=
  hasXml_iff.2 ⟨_, ⟨rfl, rfl⟩, by rw [readXmlBytes, decodeUtf8_encodeUtf8]; exact h⟩

theorem exMig_sameMig : SameMig exMig exMig := by
  unfold exMig xClass xField
  repeat' (first | exact SameMigs.nil | refine SameMigs.cons ?_ ?_ | refine SameMig.mk (List.Perm.refl _) (by decide) ?_)

/-- two sets of input files: one with the default style and one indented, with other line numbers and conditions, the MIG with and
without a comment -/
theorem ex_sameInputs (check output : Option FsPath) : SameInputs exUri exCliXml (exFsXml exFlatSchema exDefaultStyle exMigFile)
    (exFsXml exFlatOther exCliStyle exMig.tostring) (exOptions check output) (exOptions check output) :=
  ⟨exFlatSchema, exFlatOther, exSgh, exMig, exMig, exFsXml_flat exFlatSchema_constructed _ _, exFsXml_flat exFlatOther_constructed _ _,
    exFlatOther_same, exFsXml_sgh _ _ _, exFsXml_sgh _ _ _, exFsXml_mig _ _ (by decide +kernel), exFsXml_mig _ _ (by decide +kernel),
    exMig_sameMig⟩

theorem exFsXml_pathsOk (flat : FlatAhb) (st : JsonStyle) (mig : PyStr) :
    PathsOk exFiles (exFsXml flat st mig) (exOptions none (some exOut)) := by
  refine ⟨?_, fun p hp => ?_⟩
  · rintro p (h | h | h | h)
    · subst h; exact ⟨rfl, rfl⟩
    · subst h; exact ⟨rfl, rfl⟩
    · subst h; exact ⟨rfl, rfl⟩
    · cases h
  · cases hp; exact ⟨rfl, fun _ => rfl⟩

theorem exFsXml_canWrite (flat : FlatAhb) (st : JsonStyle) (mig : PyStr) (n : Nat) : CanWrite exFiles (exFsXml flat st mig) exOut n :=
  ⟨.inr ⟨⟨[py!"data"], py!"maus.json", rfl, rfl⟩, rfl⟩, rfl, fun n hn => by cases hn⟩

/-- both runs succeed and write the same bytes -/
example : ∃ content, (cliCommand exCliXml (exOptions none (some exOut)) ⟨exFsXml exFlatSchema exDefaultStyle exMigFile, []⟩).2.fs.contentAt exOut
      = some content ∧
    (cliCommand exCliXml (exOptions none (some exOut)) ⟨exFsXml exFlatOther exCliStyle exMig.tostring, []⟩).2.fs.contentAt exOut = some content := by
  obtain ⟨flat', maus, hd, _⟩ := ex_deep
  obtain ⟨h1, h2⟩ := C86_same_output exUri exCliXml rfl (exOptions none (some exOut)) (exOptions none (some exOut))
    ⟨exFsXml exFlatSchema exDefaultStyle exMigFile, []⟩ ⟨exFsXml exFlatOther exCliStyle exMig.tostring, []⟩ exOut exOut rfl rfl rfl rfl
    (ex_sameInputs _ _)
  have hok := (C58_output exCliXml (exOptions none (some exOut)) ⟨exFsXml exFlatSchema exDefaultStyle exMigFile, []⟩ exOut rfl rfl).1.2
    ⟨exFsXml_pathsOk _ _ _, maus, (C86_inputs exUri exCliXml rfl _ _ _).2 ⟨_, _, _, flat', exFsXml_flat exFlatSchema_constructed _ _,
      exFsXml_sgh _ _ _, exFsXml_mig _ _ (by decide +kernel), hd⟩, exFsXml_canWrite _ _ _ _⟩
  exact h2 hok ((h1 (exFsXml_pathsOk _ _ _) (exFsXml_pathsOk _ _ _)
    fun n => ⟨fun _ => exFsXml_canWrite _ _ _ _, fun _ => exFsXml_canWrite _ _ _ _⟩).1 hok)

/-- the two sets of input files do differ -/
example : exFlatSchema ≠ exFlatOther ∧ exMigFile ≠ exMig.tostring ∧
    jsonDumps exDefaultStyle exFlatSchema.dump ≠ jsonDumps exCliStyle exFlatSchema.dump := by decide +kernel

end Verif
