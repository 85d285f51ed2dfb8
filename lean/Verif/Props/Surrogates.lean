import Verif.Proofs.Surrogates
import Verif.Props.CliCrash
import Verif.Props.CliRaises
/-!
# C123: a run of the command line tool that fails while it writes

Texts with lone surrogates come in as escapes in the JSON files and cannot be encoded in UTF-8. The tool opens the output file before it
encodes the text, so the MAUS that was there before is lost.
-/

namespace Verif
open FileProg

/-! ## reading -/

/-- **C123 (reading)** the model of `json.loads` for texts with escapes of lone surrogates reads every string as `scanstring` does: from the
code points and escaped UTF-16 units of the string, pairs of surrogates make one character, and every other surrogate is kept as it is. -/
theorem C123_reading (s : PyStr) (units : List Nat) (rest : PyStr) (h : scanUnits s = .ok (units, rest)) :
    ∃ t, UnitsString units t ∧ parseJsonString (loneText s) = .ok (t, loneText rest) := by
  obtain ⟨l', t, h1, h2, h3⟩ := scan_loneText s.length s (Nat.le_refl _) units rest h
  refine ⟨t, h3, ?_⟩
  unfold parseJsonString
  rw [h1]
  dsimp only
  rw [h2]

/-- `a𐀀b\ud83d"`: a pair and then a lone surrogate -/
example : parseJsonString (loneText py!"a\\ud800\\uDC00b\\ud83d\", 1") = .ok ([ 'a', Char.ofNat 0x10000, 'b', Char.ofNat (0x10F800 + 0x3d)], py!", 1") := by
  decide +kernel

/-! ## runs without lone surrogates -/

theorem generateLone_plain (env : CliEnv) (o : CliOptions) (w : FileWorld)
    (hf : ∀ t, TextAt env.files w.fs o.flatAhbPath t → NoSurrogateEscape t)
    (hs : ∀ t, TextAt env.files w.fs o.sghPath t → NoSurrogateEscape t) : generateLone env o w = generate env o w := by
  unfold generateLone generate
  show FileProg.seq _ _ w = FileProg.seq _ _ w
  unfold FileProg.seq
  have h1 := (OnlyReads.readText env.files o.flatAhbPath).fs w
  have h2 := fun t => @readText_ok env.files o.flatAhbPath w t
  rcases hr : readText env.files o.flatAhbPath w with ⟨_ | t, w1⟩
  · rfl
  rw [hr] at h1 h2
  dsimp only at h1 h2 ⊢
  rw [jsonLoadsLone_plain t (hf t ((h2 t).1 rfl))]
  show FileProg.seq _ _ w1 = FileProg.seq _ _ w1
  unfold FileProg.seq
  rcases hl : (FileProg.lift ((jsonLoads t).bind FlatAhb.load)) w1 with ⟨_ | flat, w2⟩
  · rfl
  have hw : w2 = w1 := by
    have : ((FileProg.lift ((jsonLoads t).bind FlatAhb.load)) w1).2 = w1 := rfl
    rw [hl] at this
    exact this
  subst hw
  dsimp only
  show FileProg.seq _ _ w2 = FileProg.seq _ _ w2
  unfold FileProg.seq
  have h3 := fun t => @readText_ok env.files o.sghPath w2 t
  rcases hr' : readText env.files o.sghPath w2 with ⟨_ | t', w3⟩
  · rfl
  rw [hr'] at h3
  dsimp only at h3 ⊢
  have ht' := (h3 t').1 rfl
  rw [h1] at ht'
  rw [jsonLoadsLone_plain t' (hs t' ht')]

theorem checkMausLone_plain (env : FileEnv) (maus : DeepAhb) (p : FsPath) (w : FileWorld)
    (h : ∀ t, TextAt env w.fs p t → NoSurrogateEscape t) : checkMausLone env maus p w = checkMaus env maus p w := by
  unfold checkMausLone checkMaus
  show FileProg.seq _ _ w = FileProg.seq _ _ w
  unfold FileProg.seq
  have h2 := fun t => @readText_ok env p w t
  rcases hr : readText env p w with ⟨_ | t, w1⟩
  · rfl
  rw [hr] at h2
  dsimp only at h2 ⊢
  rw [jsonLoadsLone_plain t (h t ((h2 t).1 rfl))]

/-- **C123 (everything else is as before)** if the JSON files hold no escape of a surrogate and the MAUS no lone surrogate, the command
does exactly what the theorems about `cliCommand` (C58, C59, C86, C92, C99, C110) say. -/
theorem C123_without_surrogates (env : CliEnv) (o : CliOptions) (w : FileWorld)
    (hf : ∀ t, TextAt env.files w.fs o.flatAhbPath t → NoSurrogateEscape t)
    (hs : ∀ t, TextAt env.files w.fs o.sghPath t → NoSurrogateEscape t)
    (hk : ∀ p t, o.checkPath = some p → TextAt env.files w.fs p t → NoSurrogateEscape t)
    (hm : ∀ maus, Generates env w.fs o maus → ¬ HoldsLone (mausText maus)) :
    cliCommandLone env o w = cliCommand env o w := by
  obtain ⟨h1, h2⟩ := cliCommandLone_run env o w
  obtain ⟨h1', h2'⟩ := cliCommand_run env o w
  by_cases hp : PathsOk env.files w.fs o
  swap
  · rw [h2 hp, h2' hp]
  rw [h1 hp, h1' hp]
  have hgen := generateLone_plain env o w hf hs
  obtain ⟨r, l, h3, h4, _⟩ := generate_run env o w
  cases hc : o.checkPath with
  | none =>
    cases ho : o.outputPath with
    | none =>
      rw [cliMainLone_ambiguous env o w (by rw [hc, ho]), cliMain_ambiguous env o w (by rw [hc, ho])]
    | some p =>
      rw [cliMainLone_output env o w p hc ho, cliMain_output env o w p hc ho, hgen, h3]
      cases r with
      | error e => rfl
      | ok maus =>
        dsimp only
        rw [writeMausLone_plain _ _ _ (hm maus ((h4 maus).1 rfl))]
  | some p =>
    cases ho : o.outputPath with
    | some q =>
      rw [cliMainLone_ambiguous env o w (by rw [hc, ho]; rfl), cliMain_ambiguous env o w (by rw [hc, ho]; rfl)]
    | none =>
      rw [cliMainLone_check env o w p hc ho, cliMain_check env o w p hc ho, hgen, h3]
      cases r with
      | error e => rfl
      | ok maus =>
        dsimp only
        exact checkMausLone_plain _ _ _ _ (fun t (ht : TextAt env.files w.fs p t) => hk p t hc ht)

/-! ## runs with lone surrogates -/

/-- **C123 (exact)** the text of the MAUS holds a lone surrogate and the output file can be written: the run fails with a
`UnicodeEncodeError` (a `ValueError`), no other file is changed, and the output file is left with the beginning of the text, up to the first string with
a lone surrogate (and the bracket, comma and blanks in front of it). Without permission, directory or space the run fails as well. -/
theorem C123_lone (env : CliEnv) (o : CliOptions) (w : FileWorld) (p : FsPath) (maus : DeepAhb) (hc : o.checkPath = none)
    (ho : o.outputPath = some p) (hp : PathsOk env.files w.fs o) (hg : GeneratesLone env w.fs o maus)
    (hl : HoldsLone (mausText maus)) :
    ∃ part before s after, mausText maus = part ++ (before ++ (jsonQuote false s ++ after)) ∧
      ¬ HoldsLone part ∧ (∀ c ∈ before, c ∈ ['[', ',', '\n', ' ']) ∧ HoldsLone s ∧
      (CanWrite env.files w.fs p (encodeUtf8 part).length →
        (cliCommandLone env o w).1 = .error .valueError ∧
        (cliCommandLone env o w).2.fs.contentAt p = some (encodeUtf8 part) ∧
        w.fs.SameExcept p (cliCommandLone env o w).2.fs) ∧
      (cliCommandLone env o w).1 ≠ .ok () := by
  obtain ⟨part, before, s, after, rfl, h2, h3, h4, h5, h6⟩ := pieces_split maus hl
  refine ⟨_, before, s, after, h2, h3, h5, h4, ?_⟩
  obtain ⟨r, l, h7, h8, _⟩ := generateLone_run env o w
  rw [(cliCommandLone_run env o w).1 hp, cliMainLone_output env o w p hc ho, h7, (h8 maus).2 hg]
  dsimp only
  rw [writeMausLone_lone _ _ _ h6]
  generalize encodeUtf8 ((jsonPieces cliStyle 0 maus.dump.sorted).takeWhile encodable).flatten = content
  rcases writeBytes_cases env.files p content { fs := w.fs, log := w.log ++ l } with ⟨e, he, hn⟩ |
    ⟨part, fs0, fs', hpre, hd, hs0, hs1, hs2, hsp, he⟩
  · rw [he]
    dsimp only
    refine ⟨fun hcan => ?_, fun h => (by cases h)⟩
    exfalso
    rcases hn with hn | hn
    · rw [hcan.2.1] at hn; cases hn
    · obtain ⟨fs', hfs⟩ := (canWrite_iff.1 hcan).1
      exact hn fs' hfs
  · rw [he]
    by_cases hpc : part = content
    · rw [if_pos hpc]
      dsimp only
      refine ⟨fun _ => ⟨rfl, ?_, store_sameExcept hs2⟩, fun h => (by cases h)⟩
      rw [contentAt_store hs2, hpc]
    · rw [if_neg hpc]
      dsimp only
      exact ⟨fun hcan => absurd (hsp.2 hcan.2.2) hpc, fun h => (by cases h)⟩

/-- **C123 (encodable texts)** the text of the MAUS holds no lone surrogate: the run succeeds exactly if the output file can be written, and
then the file holds the whole text and no other file is changed. (The JSON files may hold escapes of pairs of surrogates.) -/
theorem C123_written (env : CliEnv) (o : CliOptions) (w : FileWorld) (p : FsPath) (maus : DeepAhb) (hc : o.checkPath = none)
    (ho : o.outputPath = some p) (hp : PathsOk env.files w.fs o) (hg : GeneratesLone env w.fs o maus)
    (hl : ¬ HoldsLone (mausText maus)) :
    ((cliCommandLone env o w).1 = .ok () ↔ CanWrite env.files w.fs p (encodeUtf8 (mausText maus)).length) ∧
    ((cliCommandLone env o w).1 = .ok () → (cliCommandLone env o w).2.fs.contentAt p = some (encodeUtf8 (mausText maus)) ∧
      w.fs.SameExcept p (cliCommandLone env o w).2.fs) := by
  obtain ⟨r, l, h7, h8, _⟩ := generateLone_run env o w
  rw [(cliCommandLone_run env o w).1 hp, cliMainLone_output env o w p hc ho, h7, (h8 maus).2 hg]
  dsimp only
  rw [writeMausLone_plain _ _ _ hl]
  unfold writeMaus
  show _ ∧ _
  rw [show jsonDumps cliStyle maus.dump = mausText maus from rfl]
  generalize encodeUtf8 (mausText maus) = content
  rcases writeBytes_cases env.files p content { fs := w.fs, log := w.log ++ l } with ⟨e, he, hn⟩ |
    ⟨part, fs0, fs', hpre, hd, hs0, hs1, hs2, hsp, he⟩
  · rw [he]
    dsimp only
    refine ⟨⟨fun h => (by cases h), fun hcan => ?_⟩, fun h => (by cases h)⟩
    exfalso
    rcases hn with hn | hn
    · rw [hcan.2.1] at hn; cases hn
    · obtain ⟨fs', hfs⟩ := (canWrite_iff.1 hcan).1
      exact hn fs' hfs
  · rw [he]
    by_cases hpc : part = content
    · rw [if_pos hpc]
      dsimp only
      subst hpc
      exact ⟨⟨fun _ => canWrite_iff.2 ⟨⟨fs', hs2⟩, hd, hsp.1 rfl⟩, fun _ => rfl⟩, fun _ => ⟨contentAt_store hs2, store_sameExcept hs2⟩⟩
    · rw [if_neg hpc]
      dsimp only
      exact ⟨⟨fun h => (by cases h), fun hcan => absurd (hsp.2 hcan.2.2) hpc⟩, fun h => (by cases h)⟩

/-- **C123 (what is left is refused)** after such a run `get_maus` of a file based provider that looks at the output path raises a
`ValueError`, whatever it had returned before. -/
theorem C123_refused {F V : Type} (env : CliEnv) (o : CliOptions) (w : FileWorld) (p : FsPath) (maus : DeepAhb) (hc : o.checkPath = none)
    (ho : o.outputPath = some p) (hp : PathsOk env.files w.fs o) (hg : GeneratesLone env w.fs o maus)
    (hl : HoldsLone (mausText maus)) (hcan : CanWrite env.files w.fs p (encodeUtf8 (mausText maus)).length)
    (hread : env.files.readDenied p = false) (cwd : FsPath) (basePath rel : PurePath) (toPath : F → V → PyStr → PyRes PurePath)
    (format : F) (version : V) (pruefidentifikator : PyStr) (ht : toPath format version pruefidentifikator = .ok rel)
    (hplace : placeBelow cwd basePath rel = p) :
    (getMaus env.files cwd basePath decodeUtf8 toPath format version pruefidentifikator (cliCommandLone env o w).2).1
      = .error .valueError := by
  obtain ⟨part, before, s, after, h1, h2, h3, h4, h5, _⟩ := C123_lone env o w p maus hc ho hp hg hl
  have hlen : (encodeUtf8 part).length ≤ (encodeUtf8 (mausText maus)).length := by
    rw [h1]
    simp [encodeUtf8]
  obtain ⟨_, h6, _⟩ := h5 ⟨hcan.1, hcan.2.1, fun n hn => Nat.le_trans hlen (hcan.2.2 n hn)⟩
  have hpre : encodeUtf8 part <+: encodeUtf8 (jsonDumps cliStyle maus.dump) := by
    refine ⟨encodeUtf8 (before ++ (jsonQuote false s ++ after)), ?_⟩
    show _ = encodeUtf8 (mausText maus)
    rw [h1]
    simp [encodeUtf8]
  have hne : encodeUtf8 part ≠ encodeUtf8 (jsonDumps cliStyle maus.dump) := by
    intro h
    have hlen' : (encodeUtf8 (mausText maus)).length = (encodeUtf8 part).length := by rw [h]; rfl
    rw [h1] at hlen'
    simp only [encodeUtf8, List.flatMap_append, List.length_append] at hlen'
    have hq : 0 < ((jsonQuote false s).flatMap String.utf8EncodeChar).length := by
      unfold jsonQuote
      rw [List.flatMap_cons, List.length_append]
      have : 0 < (String.utf8EncodeChar '"').length := by decide
      omega
    omega
  rw [C60_exceptions env.files cwd basePath decodeUtf8 toPath format version pruefidentifikator decodeUtf8_not_missing _ rel ht]
  left
  rw [hplace]
  refine ⟨_, ⟨h6, hread⟩, ?_⟩
  rcases C92_part_is_unreadable cliStyle _ maus.isPython_dump _ hpre hne with h | ⟨t, h, h', _⟩
  · exact .inl h
  · refine .inr ⟨t, h, ?_⟩
    rw [h']
    rfl

/-- **C123 (partial: no lone surrogates in the MAUS)** a run that fails has changed no file and no directory, provided that the text of the MAUS
holds no lone surrogate, and that the device is not full. Without the first premise it is false: `C123_counterexample`. -/
theorem C123_failed_run_changes_nothing_partial (env : CliEnv) (o : CliOptions) (w : FileWorld) (e : Exc)
    (h : (cliCommandLone env o w).1 = .error e) (hl : ∀ maus, GeneratesLone env w.fs o maus → ¬ HoldsLone (mausText maus)) :
    (cliCommandLone env o w).2.fs = w.fs ∨
    ∃ p n maus, o.outputPath = some p ∧ o.checkPath = none ∧ env.files.space = some n ∧ GeneratesLone env w.fs o maus ∧
      n < (encodeUtf8 (mausText maus)).length ∧ e = .other := by
  obtain ⟨h1, h2⟩ := cliCommandLone_run env o w
  by_cases hp : PathsOk env.files w.fs o
  swap
  · rw [h2 hp]; exact .inl rfl
  rw [h1 hp] at h ⊢
  obtain ⟨r, l, h3, h4, _⟩ := generateLone_run env o w
  cases hc : o.checkPath with
  | some p =>
    cases ho : o.outputPath with
    | some q => rw [cliMainLone_ambiguous env o w (by rw [hc, ho]; rfl)]; exact .inl rfl
    | none =>
      rw [cliMainLone_check env o w p hc ho, h3]
      cases r with
      | error x => exact .inl rfl
      | ok maus => exact .inl (checkMausLone_fs _ _ _ _)
  | none =>
    cases ho : o.outputPath with
    | none => rw [cliMainLone_ambiguous env o w (by rw [hc, ho])]; exact .inl rfl
    | some p =>
      rw [cliMainLone_output env o w p hc ho, h3] at h ⊢
      cases r with
      | error x => exact .inl rfl
      | ok maus =>
        have hg := (h4 maus).1 rfl
        dsimp only at h ⊢
        rw [writeMausLone_plain _ _ _ (hl maus hg)] at h ⊢
        unfold writeMaus at h ⊢
        rcases writeBytes_cases env.files p (encodeUtf8 (jsonDumps cliStyle maus.dump)) { fs := w.fs, log := w.log ++ l } with
          ⟨x, he, _⟩ | ⟨part, _, fs', _, _, _, _, _, hiff, he⟩
        · rw [he]; exact .inl rfl
        · rw [he] at h
          dsimp only at h
          split at h
          · cases h
          · rename_i hne
            cases h
            refine .inr ?_
            have hne' : ¬ ∀ n, env.files.space = some n → (encodeUtf8 (jsonDumps cliStyle maus.dump)).length ≤ n := fun h => hne (hiff.2 h)
            cases hsp : env.files.space with
            | none => exact absurd (fun n h => by rw [hsp] at h; cases h) hne'
            | some n =>
              refine ⟨p, n, maus, rfl, rfl, rfl, hg, ?_, rfl⟩
              refine Nat.lt_of_not_le fun hle => hne' fun m h => ?_
              rw [hsp] at h
              cases h
              exact hle

/-! ## the counterexample -/

/-- a text without backslashes holds no escapes -/
theorem noSurrogateEscape_of_not_mem {s : PyStr} (h : '\\' ∉ s) : NoSurrogateEscape s := by
  intro before a b c d after n hs _
  exact absurd (by rw [hs]; simp) h

theorem jsonTokens_plain {a : PyStr} (h : '\\' ∉ a) (b : PyStr) : jsonTokens (a ++ b) = a.map .char ++ jsonTokens b := by
  induction a with
  | nil => rfl
  | cons c a ih =>
    simp only [List.mem_cons, not_or] at h
    rw [List.cons_append, jsonTokens, ih h.2]
    · rfl
    · rintro _ _ _ _ _ rfl; exact absurd rfl h.1
    · rintro _ _ rfl; exact absurd rfl h.1

theorem joinTokens_char_append (a : PyStr) (ts : List JsonToken) : joinTokens false (a.map .char ++ ts) = a ++ joinTokens false ts := by
  induction a with
  | nil => rfl
  | cons c a ih => rw [List.map_cons, List.cons_append, joinTokens, ih]; rfl

/-- one escape in a text -/
theorem loneText_one {a b : PyStr} (ha : '\\' ∉ a) (hb : '\\' ∉ b) :
    loneText (a ++ ('\\' :: 'u' :: 'd' :: '8' :: '0' :: '0' :: b)) = a ++ standIn 0xD800 :: b := by
  have hp : parseHex ['d', '8', '0', '0'] = some 0xD800 := by decide
  have hbt : jsonTokens b = b.map .char := by
    have := jsonTokens_plain hb []
    rwa [List.append_nil, jsonTokens, List.append_nil] at this
  have hlow : startsLow (b.map .char) = false := by cases b <;> rfl
  rw [loneText, jsonTokens_plain ha, joinTokens_char_append, jsonTokens, hp]
  dsimp only
  rw [hbt, joinTokens, if_pos (by decide), hlow, joinTokens_chars]
  rfl

/-- the example AHB with another description, which ends with a lone surrogate -/
def exLoneFlat : FlatAhb :=
  { exFlatSchema with ahbMeta := { exFlatSchema.ahbMeta with description := some (py!"Anmeldung " ++ [Char.ofNat 0x10F800]) } }

theorem exLoneFlat_constructed : exLoneFlat.Constructed := by
  refine ⟨by decide +kernel, by decide +kernel, ?_⟩
  have h : ∀ l ∈ exLoneFlat.lines, AhbLine.new l = .ok l ∧ l.guid = some 0x6fd1a3b2c4d5e6f708192a3b4c5d6e7f := by
    decide +kernel
  intro l hl
  obtain ⟨h1, h2⟩ := h l hl
  refine ⟨h1, fun g hg => ?_⟩
  rw [h2] at hg
  cases hg
  decide

/-- its text, with the stand-in -/
def exLoneRaw : PyStr := jsonDumps { indent := none, ensureAscii := false, sortKeys := false } exLoneFlat.dump

/-- its text, with the escape `\ud800` -/
def exLoneText : PyStr :=
  exLoneRaw.takeWhile (fun c => !isStandIn c) ++ ('\\' :: 'u' :: 'd' :: '8' :: '0' :: '0' :: (exLoneRaw.dropWhile (fun c => !isStandIn c)).tail)

theorem mem_takeWhile {p : Char → Bool} {c : Char} {s : PyStr} (h : c ∈ s.takeWhile p) : c ∈ s :=
  (List.takeWhile_prefix p).subset h

theorem mem_dropWhile_tail {p : Char → Bool} {c : Char} {s : PyStr} (h : c ∈ (s.dropWhile p).tail) : c ∈ s :=
  (List.dropWhile_suffix p).subset (List.mem_of_mem_tail h)

theorem exLone_loneText : loneText exLoneText = exLoneRaw := by
  have hb : '\\' ∉ exLoneRaw := by
    have h : exLoneRaw.all (fun c => decide (c ≠ '\\')) = true := by decide +kernel
    intro hm
    exact of_decide_eq_true (List.all_eq_true.1 h _ hm) rfl
  have hh : (exLoneRaw.dropWhile (fun c => !isStandIn c)).head? = some (standIn 0xD800) := by decide +kernel
  unfold exLoneText
  rw [loneText_one (fun h => hb (mem_takeWhile h)) (fun h => hb (mem_dropWhile_tail h))]
  have hd := List.takeWhile_append_dropWhile (p := fun c => !isStandIn c) (l := exLoneRaw)
  generalize exLoneRaw.dropWhile (fun c => !isStandIn c) = d at hh hd ⊢
  cases d with
  | nil => cases hh
  | cons c d => cases hh; exact hd

theorem exLone_load : (jsonLoadsLone exLoneText).bind FlatAhb.load = .ok exLoneFlat := by
  unfold jsonLoadsLone
  rw [exLone_loneText]
  exact C66_flat_text_round_trip _ _ exLoneFlat_constructed

theorem exLone_decode : decodeUtf8 (encodeUtf8 exLoneText) = .ok exLoneText := by
  rw [decodeUtf8_encodeUtf8, universalNewlines_self]
  have h : '\r' ∉ exLoneRaw := cr_render _ 0 _
  unfold exLoneText
  simp only [List.mem_append, List.mem_cons, not_or]
  exact ⟨fun h' => h (mem_takeWhile h'), by decide, by decide, by decide, by decide, by decide, by decide, fun h' => h (mem_dropWhile_tail h')⟩

theorem exSgh_lone_load : (jsonLoadsLone (jsonDumps exDefaultStyle exSgh.dump)).bind Sgh.load = .ok exSgh := by
  have hb : '\\' ∉ jsonDumps exDefaultStyle exSgh.dump := by
    have h : (jsonDumps exDefaultStyle exSgh.dump).all (fun c => decide (c ≠ '\\')) = true := by decide +kernel
    intro hm
    exact of_decide_eq_true (List.all_eq_true.1 h _ hm) rfl
  rw [jsonLoadsLone_plain _ (noSurrogateEscape_of_not_mem hb)]
  exact C66_sgh_text_round_trip _ _

/-- the directory: the flat AHB with the lone surrogate, the hierarchy, the template, and a MAUS from an earlier run -/
def exLoneFs : FsNode := exFsWith (encodeUtf8 exLoneText) (encodeUtf8 (jsonDumps exDefaultStyle exSgh.dump)) (encodeUtf8 exEmptyMaus)

theorem exLone_generates_with (text sghText : PyStr) (old : Bytes) (h1 : (jsonLoadsLone text).bind FlatAhb.load = .ok exLoneFlat)
    (h2 : decodeUtf8 (encodeUtf8 text) = .ok text) (h3 : (jsonLoadsLone sghText).bind Sgh.load = .ok exSgh)
    (h4 : decodeUtf8 (encodeUtf8 sghText) = .ok sghText) :
    ∃ maus, GeneratesLone exCliEnv (exFsWith (encodeUtf8 text) (encodeUtf8 sghText) old) (exOptions none (some exOut)) maus ∧
      HoldsLone (mausText maus) := by
  have hd : (toDeepAhb (migLookup exMig) exPosStr exLoneFlat exSgh).map (fun r => decide ((mausText r.2).any isStandIn = true)) = .ok true := by
    decide +kernel
  obtain ⟨⟨flat', maus⟩, h5, h6⟩ := ok_of_map hd
  refine ⟨maus, ⟨text, exLoneFlat, sghText, exSgh, _, exMig, flat', ⟨_, ⟨rfl, rfl⟩, h2⟩, h1, ⟨_, ⟨rfl, rfl⟩, h4⟩, h3, ⟨rfl, rfl⟩, rfl, h5⟩, ?_⟩
  obtain ⟨c, hc, hc'⟩ := List.any_eq_true.1 (of_decide_eq_true h6)
  exact ⟨c, hc, of_decide_eq_true hc'⟩

/-- a provider that looks at the output path of the example -/
def exProvide (w : FileWorld) : PyRes (Option DeepAhb) :=
  (getMaus exFiles [] { absolute := true, parts := [py!"data"] } decodeUtf8
    (fun (_ : Unit) (_ : Unit) (_ : PyStr) => .ok { absolute := false, parts := [py!"maus.json"] }) () () py!"11042" w).1

theorem exLone_run (flat sgh old : Bytes) (maus : DeepAhb)
    (hg : GeneratesLone exCliEnv (exFsWith flat sgh old) (exOptions none (some exOut)) maus) (hl : HoldsLone (mausText maus)) :
    (cliCommandLone exCliEnv (exOptions none (some exOut)) ⟨exFsWith flat sgh old, []⟩).1 = .error .valueError ∧
    exProvide (cliCommandLone exCliEnv (exOptions none (some exOut)) ⟨exFsWith flat sgh old, []⟩).2 = .error .valueError := by
  have hp : PathsOk exCliEnv.files (exFsWith flat sgh old) (exOptions none (some exOut)) :=
    exFsWith_pathsOk _ _ _ _ _ (.inl rfl) (.inr (.inl rfl))
  have hcan : ∀ size, CanWrite exCliEnv.files (exFsWith flat sgh old) exOut size := fun size =>
    ⟨.inl (fun h => by cases h), rfl, fun n hn => by cases hn⟩
  refine ⟨?_, ?_⟩
  · obtain ⟨part, _, _, _, _, _, _, _, h, _⟩ := C123_lone exCliEnv _ ⟨exFsWith flat sgh old, []⟩ exOut maus rfl rfl hp hg hl
    exact (h (hcan _)).1
  · exact C123_refused exCliEnv _ ⟨exFsWith flat sgh old, []⟩ exOut maus rfl rfl hp hg hl (hcan _) rfl _ _ _ _ _ _ _ rfl rfl

theorem exLone_before (flat sgh : Bytes) : ∃ old, exProvide ⟨exFsWith flat sgh (encodeUtf8 exEmptyMaus), []⟩ = .ok (some old) := by
  have h : ((jsonLoads exEmptyMaus).bind DeepAhb.load).map (fun a => a.lines.length) = .ok 0 := by decide +kernel
  obtain ⟨old, h1, _⟩ := ok_of_map h
  refine ⟨old, (((C60_get_maus exFiles [] _ decodeUtf8 _ () () py!"11042" decodeUtf8_not_missing
    ⟨exFsWith flat sgh (encodeUtf8 exEmptyMaus), []⟩).2.1 _ rfl).2 _).2 ⟨_, exEmptyMaus, ⟨rfl, rfl⟩, by decide +kernel, h1⟩⟩

/-- **C123 (counterexample)** a valid flat AHB whose description ends with the escape `\ud800`, and an output path with a MAUS from an earlier
run, which a provider returns: the run fails with a `ValueError`, and afterwards the provider raises a `ValueError`. -/
theorem C123_counterexample :
    (∃ old, exProvide ⟨exLoneFs, []⟩ = .ok (some old)) ∧
    (cliCommandLone exCliEnv (exOptions none (some exOut)) ⟨exLoneFs, []⟩).1 = .error .valueError ∧
    exProvide (cliCommandLone exCliEnv (exOptions none (some exOut)) ⟨exLoneFs, []⟩).2 = .error .valueError := by
  obtain ⟨maus, hg, hl⟩ := exLone_generates_with exLoneText _ (encodeUtf8 exEmptyMaus) exLone_load exLone_decode exSgh_lone_load
    (decodeUtf8_jsonDumps _ _)
  exact ⟨exLone_before _ _, exLone_run _ _ _ maus hg hl⟩

/-- a run without surrogates: the premises of `C123_without_surrogates` hold -/
example : cliCommandLone exCliEnv (exOptions none none) ⟨exFsWith (encodeUtf8 py!"{}") (encodeUtf8 py!"{}") [], []⟩ =
    cliCommand exCliEnv (exOptions none none) ⟨exFsWith (encodeUtf8 py!"{}") (encodeUtf8 py!"{}") [], []⟩ := by
  have hno : NoSurrogateEscape py!"{}" := by
    intro before a b c d after n h
    have := congrArg List.length h
    simp at this
    omega
  have ht : ∀ p t, TextAt exFiles (exFsWith (encodeUtf8 py!"{}") (encodeUtf8 py!"{}") []) p t →
      p = [py!"data", py!"flat.json"] ∨ p = [py!"data", py!"sgh.json"] → NoSurrogateEscape t := by
    rintro p t ⟨b, ⟨hb, _⟩, hd⟩ hp
    have hb' : b = encodeUtf8 py!"{}" := by
      rcases hp with rfl | rfl <;> exact (Option.some.inj hb).symm
    rw [hb', show decodeUtf8 (encodeUtf8 py!"{}") = .ok py!"{}" from by decide +kernel] at hd
    cases hd
    exact hno
  refine C123_without_surrogates _ _ _ (fun t h => ht _ t h (.inl rfl)) (fun t h => ht _ t h (.inr rfl)) (fun p t h => by cases h) ?_
  rintro maus ⟨flatText, flat, _, _, _, _, _, ⟨b, ⟨hb, _⟩, hd⟩, hl, _⟩
  have hb' : b = encodeUtf8 py!"{}" := (Option.some.inj hb).symm
  rw [hb', show decodeUtf8 (encodeUtf8 py!"{}") = .ok py!"{}" from by decide +kernel] at hd
  cases hd
  rw [show ((jsonLoads py!"{}").bind FlatAhb.load) = .error .typeError from by decide +kernel] at hl
  cases hl

/-- the text of the example AHB, without escapes -/
def exPlainText : PyStr := jsonDumps { indent := none, ensureAscii := false, sortKeys := false } exFlatSchema.dump

/-- the premises of `C123_written`: the example AHB without lone surrogates is written -/
example : ∃ maus, GeneratesLone exCliEnv (exFsWith (encodeUtf8 (exPlainText)) (encodeUtf8 (jsonDumps exDefaultStyle exSgh.dump)) []) (exOptions none (some exOut)) maus ∧
    ¬ HoldsLone (mausText maus) ∧
    (cliCommandLone exCliEnv (exOptions none (some exOut)) ⟨exFsWith (encodeUtf8 (exPlainText)) (encodeUtf8 (jsonDumps exDefaultStyle exSgh.dump)) [], []⟩).1 = .ok () := by
  have hd : (toDeepAhb (migLookup exMig) exPosStr exFlatSchema exSgh).map (fun r => decide ((mausText r.2).any isStandIn = false)) = .ok true := by
    decide +kernel
  obtain ⟨⟨flat', maus⟩, h5, h6⟩ := ok_of_map hd
  have hb : '\\' ∉ exPlainText := by
    have h : (exPlainText).all
        (fun c => decide (c ≠ '\\')) = true := by decide +kernel
    intro hm
    exact of_decide_eq_true (List.all_eq_true.1 h _ hm) rfl
  have hl : ¬ HoldsLone (mausText maus) := by
    rintro ⟨c, hc, h⟩
    have := List.any_eq_false.1 (of_decide_eq_true h6) c hc
    exact this (decide_eq_true h)
  have hload : (jsonLoadsLone (exPlainText)).bind FlatAhb.load
      = .ok exFlatSchema := by
    rw [jsonLoadsLone_plain _ (noSurrogateEscape_of_not_mem hb)]
    exact C66_flat_text_round_trip _ _ exFlatSchema_constructed
  generalize hs : exPlainText = text at hload ⊢
  have hdec : decodeUtf8 (encodeUtf8 text) = .ok text := by rw [← hs]; exact decodeUtf8_jsonDumps _ _
  have hg : GeneratesLone exCliEnv (exFsWith (encodeUtf8 text) (encodeUtf8 (jsonDumps exDefaultStyle exSgh.dump)) [])
      (exOptions none (some exOut)) maus :=
    ⟨text, exFlatSchema, _, exSgh, _, exMig, flat', ⟨_, ⟨rfl, rfl⟩, hdec⟩, hload, ⟨_, ⟨rfl, rfl⟩, decodeUtf8_jsonDumps _ _⟩, exSgh_lone_load,
      ⟨rfl, rfl⟩, rfl, h5⟩
  refine ⟨maus, hg, hl, ?_⟩
  exact (C123_written exCliEnv _ ⟨_, []⟩ exOut maus rfl rfl (exFsWith_pathsOk _ _ _ _ _ (.inl rfl) (.inr (.inl rfl))) hg hl).1.2
    ⟨.inl (fun h => by cases h), rfl, fun n hn => by cases hn⟩

end Verif
