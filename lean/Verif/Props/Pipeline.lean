import Verif.Proofs.Pipeline
import Verif.Props.CliCrash
import Verif.Props.CliContent
import Verif.Props.Content
import Verif.Props.CsvText
/-!
# C100 From a CSV file to a MAUS
-/

namespace Verif

/-- **C43** each line has the GUID that was drawn for its row -/
theorem C43_guids {guid : Nat → Fin (2 ^ 128)} {records : List (List PyStr)} {pruefi : Option PyStr} {r : CsvReader}
    (h : CsvReader.new guid records pruefi = .ok r) : ∀ l ∈ r.rows, ∃ j : Nat, l.index = some (j : Int) ∧ l.guid = some (guid j).val :=
  fun l hl => by
    obtain ⟨j, h1, h2, _⟩ := new_rows_valid h l hl
    exact ⟨j, h1, h2⟩

/-- **C100** a flat AHB that has been read from a CSV file is stored as JSON, in whatever style, without loss. -/
theorem C100_stored_flat_ahb {guid : Nat → Fin (2 ^ 128)} {delimiter : Char} {content : Bytes} {pruefi : Option PyStr} {flat : FlatAhb}
    (h : FlatAhbOfCsv guid delimiter content pruefi flat) (style : JsonStyle) :
    (jsonLoads (jsonDumps style flat.dump)).bind FlatAhb.load = .ok flat :=
  C66_flat_text_round_trip style flat (flatOfCsv_constructed h)

theorem generates_of_stored {env : CliEnv} {fs : FsNode} {o : CliOptions} {flat : FlatAhb} {sgh : Sgh} {root : Xml}
    (hs : InputsStored env fs o flat sgh root) (hf : flat.Constructed) (maus : DeepAhb) :
    Generates env fs o maus ↔ ∃ flat', toDeepAhb (migLookup root) env.posStr flat sgh = .ok (flat', maus) := by
  obtain ⟨⟨s1, h1⟩, ⟨s2, h2⟩, c, h3, h4⟩ := hs
  have t1 : TextAt env.files fs o.flatAhbPath (jsonDumps s1 flat.dump) := ⟨_, h1, decodeUtf8_jsonDumps _ _⟩
  have t2 : TextAt env.files fs o.sghPath (jsonDumps s2 sgh.dump) := ⟨_, h2, decodeUtf8_jsonDumps _ _⟩
  have l1 := C66_flat_text_round_trip s1 flat hf
  have l2 := C66_sgh_text_round_trip s2 sgh
  constructor
  · rintro ⟨ft, flat1, st, sgh1, c1, root1, flat', g1, g2, g3, g4, g5, g6, g7⟩
    rw [textAt_unique g1 t1, l1] at g2
    cases g2
    rw [textAt_unique g3 t2, l2] at g4
    cases g4
    have e := g5.1
    rw [h3.1] at e
    cases e
    rw [h4] at g6
    cases g6
    exact ⟨flat', g7⟩
  · rintro ⟨flat', hd⟩
    exact ⟨_, flat, _, sgh, c, root, flat', t1, l1, t2, l2, h3, h4, hd⟩

/-- **C100** the command line tool writes what `to_deep_ahb` returns for the flat AHB of the CSV file: it succeeds iff its paths are
acceptable, `to_deep_ahb` returns, and the output can be written; the output file then is the JSON text of that MAUS, and no other
file is changed. -/
theorem C100_command {guid : Nat → Fin (2 ^ 128)} {delimiter : Char} {content : Bytes} {pruefi : Option PyStr} {flat : FlatAhb}
    (h : FlatAhbOfCsv guid delimiter content pruefi flat) (env : CliEnv) (o : CliOptions) (w : FileWorld) (sgh : Sgh) (root : Xml)
    (hs : InputsStored env w.fs o flat sgh root) (p : FsPath) (hc : o.checkPath = none) (ho : o.outputPath = some p) :
    ((cliCommand env o w).1 = .ok () ↔ PathsOk env.files w.fs o ∧ ∃ flat' maus,
      toDeepAhb (migLookup root) env.posStr flat sgh = .ok (flat', maus) ∧ CanWrite env.files w.fs p (mausBytes maus).length) ∧
    ((cliCommand env o w).1 = .ok () → ∃ flat' maus, toDeepAhb (migLookup root) env.posStr flat sgh = .ok (flat', maus) ∧
      (cliCommand env o w).2.fs.contentAt p = some (mausBytes maus)) ∧
    w.fs.SameExcept p (cliCommand env o w).2.fs := by
  have key := generates_of_stored hs (flatOfCsv_constructed h)
  obtain ⟨h1, h2, h3⟩ := C58_output env o w p hc ho
  refine ⟨?_, fun hok => ?_, h3⟩
  · rw [h1]
    refine and_congr_right fun _ => ⟨?_, ?_⟩
    · rintro ⟨maus, hg, hw⟩
      obtain ⟨flat', hd⟩ := (key maus).1 hg
      exact ⟨flat', maus, hd, hw⟩
    · rintro ⟨flat', maus, hd, hw⟩
      exact ⟨maus, (key maus).2 ⟨flat', hd⟩, hw⟩
  · obtain ⟨maus, hg, hcont⟩ := h2 hok
    obtain ⟨flat', hd⟩ := (key maus).1 hg
    exact ⟨flat', maus, hd, hcont⟩

/-- **C100** if every line stands below a heading of the CSV file, then the written MAUS is read back by its schema: it is the one that
`to_deep_ahb` returned, without its line indices. -/
theorem C100_read_back {guid : Nat → Fin (2 ^ 128)} {delimiter : Char} {content : Bytes} {pruefi : Option PyStr} {flat : FlatAhb}
    (h : FlatAhbOfCsv guid delimiter content pruefi flat) (hsec : ∀ l ∈ flat.lines, l.sectionName ≠ none) (env : CliEnv) (o : CliOptions)
    (w : FileWorld) (sgh : Sgh) (root : Xml) (hs : InputsStored env w.fs o flat sgh root) (p : FsPath) (hc : o.checkPath = none)
    (ho : o.outputPath = some p) (hok : (cliCommand env o w).1 = .ok ()) (hr : env.files.readDenied p = false) :
    ∃ flat' maus, toDeepAhb (migLookup root) env.posStr flat sgh = .ok (flat', maus) ∧
      Stored env.files (cliCommand env o w).2.fs p maus.resetAhbLineIndex := by
  have hf := flatOfCsv_constructed h
  obtain ⟨flat', maus, hd, hcont⟩ := (C100_command h env o w sgh root hs p hc ho).2.1 hok
  have hg := (generates_of_stored hs hf maus).2 ⟨flat', hd⟩
  refine ⟨flat', maus, hd, _, ⟨_, ⟨hcont, hr⟩, decodeUtf8_jsonDumps _ _⟩, (load_mausBytes hg).1 fun s hso => ?_⟩
  obtain ⟨l, hl, hsn⟩ := (toDeepAhb_constructed hd hf.2.1).2.2 s hso
  rw [hsn]
  exact hsec l hl

/-- **C100** the way can be repeated: from the same CSV file, the same hierarchy and the same MIG the tool writes the same bytes, although
each reading draws other GUIDs, and whatever styles and places are chosen for the JSON files. -/
theorem C100_same_bytes {guid guid' : Nat → Fin (2 ^ 128)} {delimiter : Char} {content : Bytes} {pruefi : Option PyStr} {flat flat' : FlatAhb}
    (h : FlatAhbOfCsv guid delimiter content pruefi flat) (h' : FlatAhbOfCsv guid' delimiter content pruefi flat') (env : CliEnv)
    (o o' : CliOptions) (w w' : FileWorld) (sgh : Sgh) (root : Xml) (hs : InputsStored env w.fs o flat sgh root)
    (hs' : InputsStored env w'.fs o' flat' sgh root) (p p' : FsPath) (hc : o.checkPath = none) (ho : o.outputPath = some p)
    (hc' : o'.checkPath = none) (ho' : o'.outputPath = some p') (hok : (cliCommand env o w).1 = .ok ())
    (hok' : (cliCommand env o' w').1 = .ok ()) :
    ∃ bytes, (cliCommand env o w).2.fs.contentAt p = some bytes ∧ (cliCommand env o' w').2.fs.contentAt p' = some bytes := by
  obtain ⟨f1, maus, hd, hcont⟩ := (C100_command h env o w sgh root hs p hc ho).2.1 hok
  obtain ⟨f2, maus', hd', hcont'⟩ := (C100_command h' env o' w' sgh root hs' p' hc' ho').2.1 hok'
  have hm := C78_maus guid guid' delimiter content pruefi (migLookup root) env.posStr sgh
  obtain ⟨r, h1, h2⟩ := h
  obtain ⟨r', h1', h2'⟩ := h'
  simp only [h1, h1', bind, Except.bind, h2, h2', hd, hd'] at hm
  have e : maus = maus' := hm
  exact ⟨_, hcont, by rw [hcont', e]⟩

/-- a CSV file as it is scraped from the PDF -/
def exPipelineCsv : PyStr :=
  py!",Segment Gruppe,Segment,Datenelement,Codes und Qualifier,Beschreibung,11042,Bedingung\n0,Nachrichten-,,,,,,\n1,Kopfsegment,,,,,,\n2,,,,Beginn,,Muss,\n3,,UNH,,,,Muss,\n4,,UNH,0062,Referenz,,X [1],[1] Wenn A\n5,Absender,,,,,,\n6,SG2,,,,,Muss,\n7,SG2,NAD,,,,Muss,\n8,SG2,NAD,3035,Absender,MS,X,\n9,Ende,,,,,,\n10,,UNT,,,,Muss,\n"

/-- the flat AHB of the example, for the GUIDs 0, 1, 2, … -/
theorem exPipeline_flat : ∃ flat, FlatAhbOfCsv (fun n => Fin.ofNat _ n) ',' (encodeUtf8 exPipelineCsv) none flat ∧
    (∀ l ∈ flat.lines, l.sectionName ≠ none) ∧ flat.lines.length = 7 ∧
    ∃ r, toDeepAhb (migLookup exMig) exPosStr flat exSgh = .ok r := by
  have gen : ∀ x : PyRes CsvReader, ((x.bind CsvReader.toFlatAhb).map fun f => (f.lines.all (fun l => decide (l.sectionName ≠ none)),
      f.lines.length, (toDeepAhb (migLookup exMig) exPosStr f exSgh).toOption.isSome)) = .ok (true, 7, true) →
      ∃ flat, (∃ r, x = .ok r ∧ r.toFlatAhb = .ok flat) ∧ (∀ l ∈ flat.lines, l.sectionName ≠ none) ∧ flat.lines.length = 7 ∧
        ∃ r, toDeepAhb (migLookup exMig) exPosStr flat exSgh = .ok r := by
    intro x h
    cases x with
    | error e => cases h
    | ok r =>
      simp only [Except.bind] at h
      obtain ⟨flat, h1, h2⟩ := ok_of_map h
      simp only [Prod.mk.injEq, List.all_eq_true, decide_eq_true_eq] at h2
      refine ⟨flat, ⟨r, rfl, h1⟩, h2.1, h2.2.1, ?_⟩
      cases hd : toDeepAhb (migLookup exMig) exPosStr flat exSgh with
      | error e => rw [hd] at h2; cases h2.2.2
      | ok r => exact ⟨r, rfl⟩
  exact gen _ (by decide +kernel)

theorem exFs_stored (flat : FlatAhb) : InputsStored exCliEnv (exFs flat) (exOptions none (some exOut)) flat exSgh exMig :=
  ⟨⟨_, rfl, rfl⟩, ⟨_, rfl, rfl⟩, _, ⟨rfl, rfl⟩, rfl⟩

/-- the hypotheses of the theorems: the example is read, stored, converted by the tool and read back -/
example : ∃ flat maus flat', FlatAhbOfCsv (fun n => Fin.ofNat _ n) ',' (encodeUtf8 exPipelineCsv) none flat ∧
    (cliCommand exCliEnv (exOptions none (some exOut)) ⟨exFs flat, []⟩).1 = .ok () ∧
    toDeepAhb (migLookup exMig) exPosStr flat exSgh = .ok (flat', maus) ∧
    Stored exFiles (cliCommand exCliEnv (exOptions none (some exOut)) ⟨exFs flat, []⟩).2.fs exOut maus.resetAhbLineIndex := by
  obtain ⟨flat, h1, h2, _, ⟨r1, r2⟩, h3⟩ := exPipeline_flat
  have hrun := ex_output (flatOfCsv_constructed h1) h3 []
  obtain ⟨flat', maus, h4, h5⟩ := C100_read_back h1 h2 exCliEnv _ ⟨exFs flat, []⟩ exSgh exMig (exFs_stored flat) exOut rfl rfl hrun rfl
  exact ⟨flat, maus, flat', h1, hrun, h4, h5⟩

end Verif
