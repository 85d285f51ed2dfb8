import Verif.Props.Provider
import Verif.Proofs.PartialText
import Verif.Proofs.PartialError
/-!
# C92: what is read after an interrupted and after a successful run of the command line tool
-/

namespace Verif
open FileProg

/-! ## texts -/

/-- **C92** a file with a dumped JSON object, of which only a part has been written: unless it is complete, either the bytes cannot be
decoded or the text is no JSON document, and both is noticed with a `ValueError` (`UnicodeDecodeError`, `JSONDecodeError`) — for every
object, every style and every length of the part. -/
theorem C92_part_is_unreadable (st : JsonStyle) (d : List (PyStr × Json)) (hd : (Json.obj d).IsPython) (part : Bytes)
    (hp : part <+: encodeUtf8 (jsonDumps st (.obj d))) (hne : part ≠ encodeUtf8 (jsonDumps st (.obj d))) :
    decodeUtf8 part = .error .valueError ∨
      ∃ t, decodeUtf8 part = .ok t ∧ jsonLoads t = .error .valueError ∧ ∀ j, ¬ JsonDocument t j := by
  cases ht : decodeUtf8 part with
  | error e =>
    left
    unfold decodeUtf8 at ht
    split at ht
    · cases ht; rfl
    · cases ht
  | ok t =>
    cases hj : jsonLoads t with
    | ok j => exact absurd (jsonLoads_part hd hp ht hj) hne
    | error e =>
      obtain ⟨rest, h1, _⟩ := decodeUtf8_prefix (cr_render st 0 _) hp ht
      obtain ⟨j', h3, _⟩ := loads_dumps st _ hd
      have h4 : jsonLoads (t ++ rest) = .ok j' := by rw [h1]; exact h3
      have he := jsonLoads_prefix_error h4 hj
      subst he
      refine .inr ⟨t, rfl, hj, fun j hdoc => ?_⟩
      rw [jsonLoads_complete hdoc] at hj
      cases hj

/-- the MAUS can be read from a part of its text only if the part is complete -/
theorem stored_part {env : FileEnv} {fs : FsNode} {p : FsPath} {maus maus' : DeepAhb} {part : Bytes} (hc : fs.contentAt p = some part)
    (hp : part <+: mausBytes maus) (hs : Stored env fs p maus') : part = mausBytes maus := by
  obtain ⟨t, ⟨b, ⟨hb, _⟩, ht⟩, hl⟩ := hs
  rw [hc] at hb
  cases hb
  cases hj : jsonLoads t with
  | error e => rw [hj] at hl; cases hl
  | ok j => exact jsonLoads_part maus.isPython_dump hp ht hj

theorem generates_constructed {env : CliEnv} {fs : FsNode} {o : CliOptions} {maus : DeepAhb} (h : Generates env fs o maus) :
    maus.Constructed ∧ (maus.Complete ↔ ∀ s, SegmentOccurs maus.lines s → s.sectionName ≠ none) := by
  obtain ⟨flatText, flat, sghText, sgh, template, root, flat', _, hflat, _, _, _, _, hdeep⟩ := h
  have hmeta : AhbMetaInformation.new flat.ahbMeta = .ok flat.ahbMeta := by
    rcases hj : jsonLoads flatText with _ | j
    · rw [hj] at hflat; cases hflat
    · rw [hj] at hflat
      exact (C63_loaded_flat_is_valid j flat hflat).2.1
  obtain ⟨hcon, hcomp, _⟩ := toDeepAhb_constructed hdeep hmeta
  exact ⟨hcon, hcomp⟩

/-- what is read from the complete text of a MAUS -/
theorem load_mausBytes {env : CliEnv} {fs : FsNode} {o : CliOptions} {maus : DeepAhb} (h : Generates env fs o maus) :
    ((∀ s, SegmentOccurs maus.lines s → s.sectionName ≠ none) →
      (jsonLoads (jsonDumps cliStyle maus.dump)).bind DeepAhb.load = .ok maus.resetAhbLineIndex) ∧
    ((∃ s, SegmentOccurs maus.lines s ∧ s.sectionName = none) →
      (jsonLoads (jsonDumps cliStyle maus.dump)).bind DeepAhb.load = .error .validationError) := by
  obtain ⟨hcon, hcomp⟩ := generates_constructed h
  obtain ⟨h1, h2⟩ := C66_deep_text_round_trip_exact cliStyle maus hcon
  exact ⟨fun hs => h1 (hcomp.2 hs), fun ⟨s, hs, hn⟩ => h2 fun hco => hcomp.1 hco s hs hn⟩

theorem load_mausBytes_ok {env : CliEnv} {fs : FsNode} {o : CliOptions} {maus maus' : DeepAhb} (h : Generates env fs o maus)
    (hl : (jsonLoads (jsonDumps cliStyle maus.dump)).bind DeepAhb.load = .ok maus') : maus' = maus.resetAhbLineIndex := by
  obtain ⟨h1, h2⟩ := load_mausBytes h
  by_cases hs : ∃ s, SegmentOccurs maus.lines s ∧ s.sectionName = none
  · rw [h2 hs] at hl; cases hl
  · rw [h1 fun s hs' hn => hs ⟨s, hs', hn⟩] at hl
    cases hl
    rfl

/-! ## interrupted runs -/

/-- **C92** at whatever moment the command is interrupted, with whatever options: every valid MAUS that is then found in any file was
there before, or it is the MAUS of the input files (up to the line indices), in the output file. -/
theorem C92_interrupted (env : CliEnv) (o : CliOptions) (w : FileWorld) : ∃ l, (cliCommand env o w).2.log = w.log ++ l ∧
    Interrupted w.fs l (cliCommand env o w).2.fs ∧
    ∀ fs, Interrupted w.fs l fs → ∀ q maus', Stored env.files fs q maus' → Stored env.files w.fs q maus' ∨
      o.outputPath = some q ∧ ∃ maus, Generates env w.fs o maus ∧ EqualUpToIndex maus' maus := by
  obtain ⟨l, h1, h2, h3⟩ := C58_interrupted env o w
  refine ⟨l, h1, h2, fun fs hfs q maus' hq => ?_⟩
  rcases h3 fs hfs with rfl | ⟨p, maus, part, ho, _, hg, hsame, hc, hp⟩
  · exact .inl hq
  · by_cases hqp : q = p
    · subst hqp
      have hpart := stored_part hc hp hq
      obtain ⟨t, ⟨b, ⟨hb, _⟩, ht⟩, hl⟩ := hq
      rw [hc, hpart] at hb
      cases hb
      unfold mausBytes at ht
      rw [decodeUtf8_jsonDumps] at ht
      cases ht
      refine .inr ⟨ho, maus, hg, ?_⟩
      rw [load_mausBytes_ok hg hl]
      rw [show EqualUpToIndex _ _ ↔ _ from (C27_equal_up_to_index _ _).symm]
      exact (C27_idempotent maus).1
    · obtain ⟨t, ht, hl⟩ := hq
      exact .inl ⟨t, (textAt_congr hsame hqp).1 ht, hl⟩

theorem isMissing_before {fs fs' : FsNode} {p q : FsPath} {part : Bytes} (h : fs.SameExcept p fs') (hc : fs'.contentAt p = some part)
    (hm : fs'.IsMissing q) : fs.IsMissing q := by
  obtain ⟨dir, name, rest, rfl, hd, he⟩ := hm
  refine ⟨dir, name, rest, rfl, by rw [(h dir).1]; exact hd, ?_⟩
  by_cases hp : dir ++ [name] = p
  · rw [hp, exists_eq, hc] at he
    simp at he
  · rw [SameExcept.exists h hp]
    exact he

/-- what was missing is still missing, unless the file itself or a file in the place of a directory on the way has been written -/
theorem isMissing_after {fs fs' : FsNode} {p q : FsPath} (h : fs.SameExcept p fs') (hq : ¬ p <+: q) (hm : fs.IsMissing q) :
    fs'.IsMissing q := by
  obtain ⟨dir, name, rest, rfl, hd, he⟩ := hm
  refine ⟨dir, name, rest, rfl, by rw [← (h dir).1]; exact hd, ?_⟩
  rw [← SameExcept.exists h (by rintro rfl; exact hq ⟨rest, by simp⟩)]
  exact he

section
variable {F V : Type} (cwd : FsPath) (basePath : PurePath) (toPath : F → V → PyStr → PyRes PurePath) (format : F) (version : V)
  (pruefidentifikator : PyStr)

/-- **C92** the same as seen by the file based MAUS provider: after an interruption at whatever moment, `get_maus` returns a MAUS only
if it would have returned the same before, or if it is the MAUS of the input files (up to the line indices), from the output file; and it
returns `None` only if it would have done so before. In all other cases it raises an exception: the one which it would have raised before;
or a `ValueError`, if the output file is incomplete; or a `ValidationError`, if it is complete, but a segment has no section name; or an
`OSError`, if the output file cannot be opened, or if the provider looks for a path below it, as if it were a directory. -/
theorem C92_provider_after_interruption (env : CliEnv) (o : CliOptions) (w : FileWorld) : ∃ l, (cliCommand env o w).2.log = w.log ++ l ∧
    Interrupted w.fs l (cliCommand env o w).2.fs ∧ ∀ fs log, Interrupted w.fs l fs →
      (∀ maus', (getMaus env.files cwd basePath decodeUtf8 toPath format version pruefidentifikator ⟨fs, log⟩).1 = .ok (some maus') →
        (getMaus env.files cwd basePath decodeUtf8 toPath format version pruefidentifikator w).1 = .ok (some maus') ∨
        ∃ rel maus, toPath format version pruefidentifikator = .ok rel ∧ o.outputPath = some (placeBelow cwd basePath rel) ∧
          Generates env w.fs o maus ∧ EqualUpToIndex maus' maus) ∧
      ((getMaus env.files cwd basePath decodeUtf8 toPath format version pruefidentifikator ⟨fs, log⟩).1 = .ok none →
        (getMaus env.files cwd basePath decodeUtf8 toPath format version pruefidentifikator w).1 = .ok none) ∧
      (∀ e, (getMaus env.files cwd basePath decodeUtf8 toPath format version pruefidentifikator ⟨fs, log⟩).1 = .error e →
        (getMaus env.files cwd basePath decodeUtf8 toPath format version pruefidentifikator w).1 = .error e ∨
        (∃ rel maus part, toPath format version pruefidentifikator = .ok rel ∧ o.outputPath = some (placeBelow cwd basePath rel) ∧
          Generates env w.fs o maus ∧ fs.contentAt (placeBelow cwd basePath rel) = some part ∧ part <+: mausBytes maus ∧
          (e = .valueError ∧ part ≠ mausBytes maus ∨
           e = .validationError ∧ part = mausBytes maus ∧ (∃ s, SegmentOccurs maus.lines s ∧ s.sectionName = none) ∨
           e = .other ∧ env.files.readDenied (placeBelow cwd basePath rel) = true)) ∨
        ∃ rel p, toPath format version pruefidentifikator = .ok rel ∧ o.outputPath = some p ∧ p ≠ placeBelow cwd basePath rel ∧
          p <+: placeBelow cwd basePath rel ∧ e = .other) := by
  obtain ⟨l, h1, h2, h3⟩ := C92_interrupted env o w
  obtain ⟨l', h1', _, h3'⟩ := C58_interrupted env o w
  have hll : l' = l := List.append_cancel_left (h1'.symm.trans h1)
  subst hll
  refine ⟨l', h1, h2, fun fs log hfs => ?_⟩
  have hspec := fun w => C60_get_maus env.files cwd basePath decodeUtf8 toPath format version pruefidentifikator decodeUtf8_not_missing w
  cases ht : toPath format version pruefidentifikator with
  | error e =>
    rw [(hspec ⟨fs, log⟩).1 e ht]
    refine ⟨fun maus' h => (by cases h), fun h => (by cases h), fun e' h => .inl ?_⟩
    rw [(hspec w).1 e ht]
    exact h
  | ok rel =>
    obtain ⟨hn, hs⟩ := (hspec ⟨fs, log⟩).2.1 rel ht
    obtain ⟨hn', hs'⟩ := (hspec w).2.1 rel ht
    refine ⟨?_, ?_, fun e he => ?_⟩
    · intro maus' h
      rw [hs'] 
      obtain ⟨content, text, hr, hd, hl⟩ := (hs maus').1 h
      rcases h3 fs hfs _ maus' ⟨text, ⟨content, hr, hd⟩, hl⟩ with ⟨t, ⟨c, hc, hct⟩, htl⟩ | ⟨ho, maus, hg, he⟩
      · exact .inl ⟨c, t, hc, hct, htl⟩
      · exact .inr ⟨rel, maus, rfl, ho, hg, he⟩
    · rw [hn, hn']
      intro hm
      rcases h3' fs hfs with rfl | ⟨p, maus, part, ho, _, hg, hsame, hc, hp⟩
      · exact hm
      · exact isMissing_before hsame hc hm
    · have hexc := fun w => C60_exceptions env.files cwd basePath decodeUtf8 toPath format version pruefidentifikator decodeUtf8_not_missing w
        rel ht e
      rw [hexc] at he ⊢
      dsimp only at he
      rcases h3' fs hfs with rfl | ⟨p, maus, part, ho, _, hg, hsame, hc, hp⟩
      · exact .inl he
      · by_cases hq : placeBelow cwd basePath rel = p
        · subst hq
          refine .inr (.inl ⟨rel, maus, part, rfl, ho, hg, hc, hp, ?_⟩)
          rcases he with ⟨content, hr, he⟩ | ⟨rfl, _, hno⟩
          · have hcp : content = part := by
              have := hr.1; rw [hc] at this; exact (Option.some.inj this).symm
            subst hcp
            by_cases hfull : content = mausBytes maus
            · right; left
              rw [hfull] at he
              obtain ⟨h5, h6⟩ := load_mausBytes hg
              have hdec : decodeUtf8 (mausBytes maus) = .ok (jsonDumps cliStyle maus.dump) := decodeUtf8_jsonDumps _ _
              rw [hdec] at he
              rcases he with he | ⟨text, htext, he⟩
              · cases he
              · cases htext
                by_cases hsec : ∃ s, SegmentOccurs maus.lines s ∧ s.sectionName = none
                · rw [h6 hsec] at he
                  cases he
                  exact ⟨rfl, hfull, hsec⟩
                · rw [h5 fun s hs' hn => hsec ⟨s, hs', hn⟩] at he
                  cases he
            · left
              refine ⟨?_, hfull⟩
              rcases C92_part_is_unreadable cliStyle _ maus.isPython_dump content hp hfull with h7 | ⟨t, h7, h8, _⟩
              · rw [h7] at he
                rcases he with he | ⟨text, htext, _⟩
                · cases he; rfl
                · cases htext
              · rw [h7] at he
                rcases he with he | ⟨text, htext, he⟩
                · cases he
                · cases htext
                  rw [h8] at he
                  cases he
                  rfl
          · right; right
            refine ⟨rfl, ?_⟩
            cases hd : env.files.readDenied (placeBelow cwd basePath rel) with
            | true => rfl
            | false => exact absurd ⟨hc, hd⟩ (hno part)
        · rcases he with ⟨content, hr, he⟩ | ⟨rfl, hm, hno⟩
          · exact .inl (.inl ⟨content, (readableAt_congr hsame hq).1 hr, he⟩)
          · by_cases hpre : p <+: placeBelow cwd basePath rel
            · exact .inr (.inr ⟨rel, p, rfl, ho, fun h => hq h.symm, hpre, rfl⟩)
            · exact .inl (.inr ⟨rfl, fun hm' => hm (isMissing_after hsame hpre hm'),
                fun content hr => hno content ((readableAt_congr hsame hq).2 hr)⟩)

/-- **C92** whenever there is an incompletely written MAUS (of whatever run) at the place where the provider looks, and the file can be
opened: `get_maus` raises a `ValueError`. -/
theorem C92_incomplete_file (env : FileEnv) (w : FileWorld) (rel : PurePath) (hrel : toPath format version pruefidentifikator = .ok rel)
    (maus : DeepAhb) (part : Bytes) (hr : ReadableAt env w.fs (placeBelow cwd basePath rel) part) (hp : part <+: mausBytes maus)
    (hne : part ≠ mausBytes maus) :
    (getMaus env cwd basePath decodeUtf8 toPath format version pruefidentifikator w).1 = .error .valueError := by
  rw [C60_exceptions env cwd basePath decodeUtf8 toPath format version pruefidentifikator decodeUtf8_not_missing w rel hrel]
  refine .inl ⟨part, hr, ?_⟩
  rcases C92_part_is_unreadable cliStyle _ maus.isPython_dump part hp hne with h | ⟨t, h1, h2, _⟩
  · exact .inl h
  · exact .inr ⟨t, h1, by rw [h2]; rfl⟩

/-! ## successful runs -/

/-- **C92** after a successful run with an output path that is the place where the provider looks, and that can be read: `get_maus`
returns the MAUS of the input files without its line indices iff every segment has a section name, and otherwise raises a
`ValidationError`. -/
theorem C92_provider_after_output (env : CliEnv) (o : CliOptions) (w w' : FileWorld) (rel : PurePath)
    (hrel : toPath format version pruefidentifikator = .ok rel) (hc : o.checkPath = none)
    (ho : o.outputPath = some (placeBelow cwd basePath rel)) (hok : (cliCommand env o w).1 = .ok ())
    (hr : env.files.readDenied (placeBelow cwd basePath rel) = false) (hw : w'.fs = (cliCommand env o w).2.fs) :
    ∃ maus, Generates env w.fs o maus ∧
      ((∀ s, SegmentOccurs maus.lines s → s.sectionName ≠ none) →
        (getMaus env.files cwd basePath decodeUtf8 toPath format version pruefidentifikator w').1 = .ok (some maus.resetAhbLineIndex)) ∧
      ((∃ s, SegmentOccurs maus.lines s ∧ s.sectionName = none) →
        (getMaus env.files cwd basePath decodeUtf8 toPath format version pruefidentifikator w').1 = .error .validationError) := by
  obtain ⟨_, h2, _⟩ := C58_output env o w _ hc ho
  obtain ⟨maus, hg, hcont⟩ := h2 hok
  rw [← hw] at hcont
  obtain ⟨h3, h4⟩ := load_mausBytes hg
  refine ⟨maus, hg, fun hs => ?_, fun hs => ?_⟩
  · exact (((C60_get_maus env.files cwd basePath decodeUtf8 toPath format version pruefidentifikator decodeUtf8_not_missing w').2.1 rel hrel).2 _).2
      ⟨_, _, ⟨hcont, hr⟩, decodeUtf8_jsonDumps _ _, h3 hs⟩
  · have hbody : (getMausBody env.files decodeUtf8 (placeBelow cwd basePath rel) w').1 = .error .validationError := by
      unfold getMausBody
      have h := readBytes_ok.2 (⟨hcont, hr⟩ : ReadableAt env.files w'.fs _ _)
      rcases hx : readBytes env.files (placeBelow cwd basePath rel) w' with ⟨r, w''⟩
      rw [hx] at h
      dsimp only at h
      subst h
      rw [seq_of_ok hx, seq_of_ok (prog := FileProg.lift _) (w := w'') (w' := w'') (a := jsonDumps cliStyle maus.dump)]
      · exact h4 hs
      · show (decodeUtf8 _, w'') = _
        rw [decodeUtf8_jsonDumps]; rfl
    unfold getMaus
    rw [hrel, seq_of_ok (prog := FileProg.lift _) (w := w') (a := rel) (w' := w') rfl]
    show (noneIfNotFound (getMausBody env.files decodeUtf8 ((basePath.join rel).resolved cwd)) w').1 = _
    rw [← placeBelow_eq]
    unfold noneIfNotFound
    rcases hb : getMausBody env.files decodeUtf8 (placeBelow cwd basePath rel) w' with ⟨r, w''⟩
    rw [hb] at hbody
    dsimp only at hbody
    subst hbody
    rfl

end

/-! ## examples -/

/-- the provider looks for the output file of the example -/
def exOutPath (_format _version : PyStr) (_pruefi : PyStr) : PyRes PurePath := .ok { absolute := false, parts := [py!"maus.json"] }
/-- the directory of the example -/
def exDataDir : PurePath := { absolute := true, parts := [py!"data"] }

/-- the tool writes a file, and the provider returns its MAUS -/
example : ∃ maus, (getMaus exFiles [] exDataDir decodeUtf8 exOutPath py!"UTILMD" py!"FV2204" py!"11042"
      (cliCommand exCliEnv (exOptions none (some exOut)) ⟨exFs exFlatSchema, []⟩).2).1 = .ok (some maus) ∧
    ∃ maus', Generates exCliEnv (exFs exFlatSchema) (exOptions none (some exOut)) maus' ∧ maus = maus'.resetAhbLineIndex := by
  obtain ⟨flat', maus, hd, _⟩ := ex_deep
  have h := ex_output exFlatSchema_constructed hd []
  obtain ⟨maus', hg, h1, _⟩ := C92_provider_after_output [] exDataDir exOutPath py!"UTILMD" py!"FV2204" py!"11042" exCliEnv
    (exOptions none (some exOut)) ⟨exFs exFlatSchema, []⟩ _ _ rfl rfl rfl h rfl rfl
  refine ⟨_, h1 ?_, maus', hg, rfl⟩
  rw [generates_unique hg (ex_generates exFlatSchema_constructed hd _ _)]
  intro s hs
  obtain ⟨l, hl, hsn⟩ := (toDeepAhb_constructed hd (by decide +kernel)).2.2 s hs
  rw [hsn]
  have hall : ∀ l ∈ exFlatSchema.lines, l.sectionName ≠ none := by decide +kernel
  exact hall l hl

theorem mausBytes_first (maus : DeepAhb) : ∃ rest, mausBytes maus = [123] ++ rest := by
  have h := (render_object_ends cliStyle 0 (Json.sortedMembers [(py!"meta", maus.ahbMeta.dump), (py!"lines", .arr (maus.lines.map SegmentGroup.dump))])).1
  have he : jsonDumps cliStyle maus.dump = cliStyle.render 0 (.obj (Json.sortedMembers [(py!"meta", maus.ahbMeta.dump),
    (py!"lines", .arr (maus.lines.map SegmentGroup.dump))])) := rfl
  rw [← he] at h
  unfold mausBytes
  cases hj : jsonDumps cliStyle maus.dump with
  | nil => rw [hj] at h; cases h
  | cons c s =>
    rw [hj] at h
    cases h
    exact ⟨encodeUtf8 s, rfl⟩

/-- the command has been interrupted behind the first byte: there is a file, but the provider raises a `ValueError` -/
example : ∃ l fs, (cliCommand exCliEnv (exOptions none (some exOut)) ⟨exFs exFlatSchema, []⟩).2.log = [] ++ l ∧
    Interrupted (exFs exFlatSchema) l fs ∧ fs.contentAt exOut = some [123] ∧
    (getMaus exFiles [] exDataDir decodeUtf8 exOutPath py!"UTILMD" py!"FV2204" py!"11042" ⟨fs, []⟩).1 = .error .valueError := by
  obtain ⟨flat', maus, hd, _⟩ := ex_deep
  have h := ex_output exFlatSchema_constructed hd []
  rcases output_run exCliEnv (exOptions none (some exOut)) ⟨exFs exFlatSchema, []⟩ exOut rfl rfl with ⟨e, l, h1, _⟩ |
    ⟨r, l, maus', part, fs0, fs', _, _, _, h1, hl, hs0, _, hs2, hr, _⟩
  · rw [h1] at h; cases h
  · rw [h1] at h ⊢
    have hpart := hr.1 h
    obtain ⟨hst, fs1, hs1⟩ := store_store (content' := [123]) hs2
    refine ⟨l ++ [.truncated exOut, .wrote exOut part], fs1, by rw [List.append_assoc], interrupted_prepend (.later _ fs0 _ (.truncated exOut) [.wrote exOut part] hs0
      (.while fs0 fs1 exOut part [123] [] ?_ ?_)) hl, contentAt_store hs1, ?_⟩
    · rw [hpart]
      obtain ⟨rest, hrest⟩ := mausBytes_first maus'
      exact ⟨rest, hrest.symm⟩
    · rw [(store_store (content' := [123]) hs0).1]; exact hs1
    · obtain ⟨rest, hrest⟩ := mausBytes_first maus'
      refine C92_incomplete_file [] exDataDir exOutPath py!"UTILMD" py!"FV2204" py!"11042" exFiles ⟨fs1, []⟩ _ rfl maus' [123]
        ⟨contentAt_store hs1, rfl⟩ ⟨rest, hrest.symm⟩ fun he => ?_
      have hends := (render_object_ends cliStyle 0 (Json.sortedMembers [(py!"meta", maus'.ahbMeta.dump),
        (py!"lines", .arr (maus'.lines.map SegmentGroup.dump))])).2
      have hdec : decodeUtf8 (mausBytes maus') = .ok (jsonDumps cliStyle maus'.dump) := decodeUtf8_jsonDumps _ _
      rw [← he, show decodeUtf8 [123] = .ok ['{'] by decide +kernel] at hdec
      injection hdec with hdec
      change (jsonDumps cliStyle maus'.dump).getLast? = _ at hends
      rw [← hdec] at hends
      revert hends
      decide

end Verif
