import Verif.Proofs.CliRaises
import Verif.Proofs.NoAbort
/-!
# How a run of the command line tool fails (C110); the exceptions of loading (C87)
-/

namespace Verif
open FileProg

/-- **C87 (kinds)** loading raises nothing but marshmallow's `ValidationError`, `TypeError` and `ValueError`; a hierarchy never gives a
`ValueError`. -/
theorem C87_which_exceptions (j : Json) (e : Exc) :
    (FlatAhb.load j = .error e → e = .validationError ∨ e = .typeError ∨ e = .valueError) ∧
    (DeepAhb.load j = .error e → e = .validationError ∨ e = .typeError ∨ e = .valueError) ∧
    (Sgh.load j = .error e → e = .validationError ∨ e = .typeError) :=
  ⟨flat_load_kind, deep_load_kind, sgh_load_kind⟩

/-- **C110** the command raises `e` exactly if the first thing that goes wrong gives `e`: the paths (checked by click), the choice between
output and check, the flat AHB, the hierarchy, the template, making the MAUS, and finally writing it or comparing it with the stored one. -/
theorem C110_exception (env : CliEnv) (o : CliOptions) (w : FileWorld) (e : Exc) :
    (cliCommand env o w).1 = .error e ↔ CommandFails env w.fs o e := cliCommand_error

/-- **C110 (flat AHB first)** if the file with the flat AHB does not contain a valid one, this is reported, whatever is wrong with the
other files. -/
theorem C110_flat_first (env : CliEnv) (o : CliOptions) (w : FileWorld) (text : PyStr) (e : Exc) (hp : PathsOk env.files w.fs o)
    (hm : OneMode o) (ht : TextAt env.files w.fs o.flatAhbPath text) (h : (jsonLoads text).bind FlatAhb.load = .error e) :
    (cliCommand env o w).1 = .error e := cliCommand_error.2 (.input e hp hm (.flat text e ht h))

/-- **C110 (abort)** if the XML parser does not raise it itself, `click.Abort` means: click has accepted the paths, and either not exactly
one of output path and check path was given, or the stored MAUS is valid and differs from the one of the input files. -/
theorem C110_abort (env : CliEnv) (hx : ∀ b, env.parseXml b ≠ .error .abort) (o : CliOptions) (w : FileWorld) :
    (cliCommand env o w).1 = .error .abort ↔ PathsOk env.files w.fs o ∧
      (o.checkPath.isSome = o.outputPath.isSome ∨
       ∃ p maus expected, o.checkPath = some p ∧ o.outputPath = none ∧ Generates env w.fs o maus ∧
         Stored env.files w.fs p expected ∧ ¬ EqualUpToIndex expected maus) := by
  rw [C110_exception]
  constructor
  · intro h
    cases h with
    | ambiguous hp h => exact ⟨hp, .inl (not_oneMode.1 h)⟩
    | input _ hp hm h =>
      exfalso
      cases h with
      | flatText _ h => cases h
      | flat t _ _ h => exact noAbort_loadText noAbort_flat t h
      | sghText _ _ _ h => cases h
      | sgh _ t _ _ _ h => exact noAbort_loadText noAbort_sgh t h
      | template _ _ b _ _ _ _ h => exact hx b h
      | maus flat sgh root _ hf _ _ h =>
        refine noAbort_toDeepAhb root _ flat sgh ?_ h
        obtain ⟨t, _, hl⟩ := hf
        rcases hj : jsonLoads t with _ | j
        · rw [hj] at hl; cases hl
        · rw [hj] at hl
          intro l hmem
          have hv := (C63_loaded_flat_is_valid j flat hl).2.2 l hmem
          exact ((C88_line l hv.2).1.1 hv.1).1
    | output p maus _ _ _ _ _ h =>
      exfalso
      cases h with
      | noDirectory dir name _ _ _ h =>
        have : ∀ (d : FsPath) (n : FsNode), n.resolve d ≠ .error .abort := by
          intro d
          induction d with
          | nil => intro n; cases n <;> simp [FsNode.resolve]
          | cons c d ih =>
            intro n
            cases n with
            | file b => simp [FsNode.resolve]
            | dir es =>
              rw [FsNode.resolve]
              split
              · simp
              · exact ih _
        exact this _ _ h
    | check p maus _ hp hc ho hg h =>
      refine ⟨hp, .inr ?_⟩
      cases h with
      | text _ h => cases h
      | load t _ _ h => exact absurd h (noAbort_loadText noAbort_deep t)
      | different expected hs h => exact ⟨p, maus, expected, hc, ho, hg, hs, h⟩
  · rintro ⟨hp, h | ⟨p, maus, expected, hc, ho, hg, hs, h⟩⟩
    · exact .ambiguous hp (not_oneMode.2 h)
    · exact .check p maus .abort hp hc ho hg (.different expected hs h)

/-- **C110 (nothing is lost)** a run that fails has changed no file and no directory, unless the device was full while the MAUS was
written to the output path. -/
theorem C110_failed_run_changes_nothing (env : CliEnv) (o : CliOptions) (w : FileWorld) (e : Exc)
    (h : (cliCommand env o w).1 = .error e) :
    (cliCommand env o w).2.fs = w.fs ∨
    ∃ p n maus, o.outputPath = some p ∧ o.checkPath = none ∧ env.files.space = some n ∧ Generates env w.fs o maus ∧
      n < (encodeUtf8 (jsonDumps { indent := some 2, ensureAscii := false, sortKeys := true } maus.dump)).length ∧ e = .other := by
  obtain ⟨h1, h2⟩ := cliCommand_run env o w
  by_cases hp : PathsOk env.files w.fs o
  swap
  · rw [h2 hp]; exact .inl rfl
  rw [h1 hp] at h ⊢
  by_cases hm : o.checkPath.isSome = o.outputPath.isSome
  · rw [cliMain_ambiguous env o w hm]; exact .inl rfl
  cases hc : o.checkPath with
  | some p =>
    have ho : o.outputPath = none := by cases ho : o.outputPath <;> simp [hc, ho] at hm ⊢
    refine .inl ?_
    rw [← h1 hp]
    exact (C58_check env o w p hc ho).1
  | none =>
    cases ho : o.outputPath with
    | none => simp [hc, ho] at hm
    | some p =>
      rw [cliMain_output env o w p hc ho] at h ⊢
      obtain ⟨r, l, h3, h4, _⟩ := generate_run env o w
      rw [h3] at h ⊢
      cases r with
      | error x => exact .inl rfl
      | ok maus =>
        dsimp only at h ⊢
        unfold writeMaus at h ⊢
        rcases writeBytes_cases env.files p (encodeUtf8 (jsonDumps cliStyle maus.dump)) { fs := w.fs, log := w.log ++ l } with
          ⟨x, he, _⟩ | ⟨part, _, fs', _, _, _, _, _, hiff, he⟩
        · rw [he]; exact .inl rfl
        · rw [he] at h
          dsimp only at h
          split at h
          · cases h
          · rename_i hne
            cases h
            refine .inr ?_
            have hne' : ¬ ∀ n, env.files.space = some n → (encodeUtf8 (jsonDumps cliStyle maus.dump)).length ≤ n := fun h => hne (hiff.2 h)
            cases hsp : env.files.space with
            | none => exact absurd (fun n h => by rw [hsp] at h; cases h) hne'
            | some n =>
              refine ⟨p, n, maus, rfl, rfl, rfl, (h4 maus).1 rfl, ?_, rfl⟩
              refine Nat.lt_of_not_le fun hle => hne' fun m h => ?_
              rw [hsp] at h
              cases h
              exact hle

/-! ## examples -/

/-- the example directory with other files -/
def exFsWith (flat sgh maus : Bytes) : FsNode :=
  .dir [(py!"data", .dir [(py!"flat.json", .file flat), (py!"sgh.json", .file sgh), (py!"utilmd.template", .file [60, 63]),
    (py!"maus.json", .file maus)])]

theorem exFsWith_pathsOk (flat sgh maus : Bytes) (check output : Option FsPath) (hc : check = none ∨ check = some exOut)
    (ho : output = none ∨ output = some exOut ∨ output = some [py!"missing", py!"maus.json"]) :
    PathsOk exFiles (exFsWith flat sgh maus) (exOptions check output) := by
  refine ⟨?_, fun p hp => ?_⟩
  · rintro p (h | h | h | h)
    · subst h; exact ⟨rfl, rfl⟩
    · subst h; exact ⟨rfl, rfl⟩
    · subst h; exact ⟨rfl, rfl⟩
    · rcases hc with rfl | rfl
      · cases h
      · cases h; exact ⟨rfl, rfl⟩
  · rcases ho with rfl | rfl | rfl <;> cases hp <;> exact ⟨rfl, fun _ => rfl⟩

/-- the flat AHB is no JSON and the hierarchy is no UTF-8: the flat AHB is reported -/
example : (cliCommand exCliEnv (exOptions none (some exOut)) ⟨exFsWith (encodeUtf8 py!"[01]") [0xff] [], []⟩).1 = .error .valueError :=
  C110_flat_first exCliEnv _ _ py!"[01]" .valueError (exFsWith_pathsOk _ _ _ _ _ (.inl rfl) (.inr (.inl rfl)))
    (by unfold OneMode; decide) ⟨_, ⟨rfl, rfl⟩, by decide +kernel⟩ rfl

/-- a flat AHB without meta information: `TypeError` -/
example : (cliCommand exCliEnv (exOptions none (some exOut)) ⟨exFsWith (encodeUtf8 py!"{\"lines\": []}") [0xff] [], []⟩).1
    = .error .typeError :=
  C110_flat_first exCliEnv _ _ py!"{\"lines\": []}" .typeError (exFsWith_pathsOk _ _ _ _ _ (.inl rfl) (.inr (.inl rfl)))
    (by unfold OneMode; decide) ⟨_, ⟨rfl, rfl⟩, by decide +kernel⟩ (by decide +kernel)

/-- neither of the two options: `click.Abort` -/
example : (cliCommand exCliEnv (exOptions none none) ⟨exFsWith [] [] [], []⟩).1 = .error .abort :=
  (C110_abort exCliEnv (fun b h => by cases h) _ _).2 ⟨exFsWith_pathsOk _ _ _ _ _ (.inl rfl) (.inl rfl), .inl rfl⟩

/-- the output directory does not exist: `FileNotFoundError`, and nothing is changed -/
example : (cliCommand exCliEnv (exOptions none (some [py!"missing", py!"maus.json"])) ⟨exFs exFlatSchema, []⟩).1
      = .error .fileNotFoundError ∧
    (cliCommand exCliEnv (exOptions none (some [py!"missing", py!"maus.json"])) ⟨exFs exFlatSchema, []⟩).2.fs = exFs exFlatSchema := by
  obtain ⟨flat', maus, hd, _⟩ := ex_deep
  have hp : PathsOk exFiles (exFs exFlatSchema) (exOptions none (some [py!"missing", py!"maus.json"])) := by
    refine ⟨(ex_pathsOk exFlatSchema).1, fun p hp => ?_⟩
    cases hp
    exact ⟨rfl, fun _ => rfl⟩
  have h : (cliCommand exCliEnv (exOptions none (some [py!"missing", py!"maus.json"])) ⟨exFs exFlatSchema, []⟩).1
      = .error .fileNotFoundError :=
    (C110_exception _ _ _ _).2 (.output _ maus _ hp rfl rfl (ex_generates exFlatSchema_constructed hd _ _)
      (.noDirectory [py!"missing"] py!"maus.json" _ rfl rfl rfl))
  refine ⟨h, ?_⟩
  rcases C110_failed_run_changes_nothing _ _ _ _ h with h' | ⟨_, _, _, _, _, hs, _⟩
  · exact h'
  · cases hs

/-- a stored MAUS without any groups -/
def exEmptyMaus : PyStr := py!"{\"meta\": {\"pruefidentifikator\": \"11042\"}, \"lines\": []}"

/-- the stored MAUS is valid, but another one: `click.Abort` -/
example : (cliCommand exCliEnv (exOptions (some exOut) none) ⟨exFsWith (encodeUtf8 (jsonDumps exDefaultStyle exFlatSchema.dump))
    (encodeUtf8 (jsonDumps exCliStyle exSgh.dump)) (encodeUtf8 exEmptyMaus), []⟩).1 = .error .abort := by
  obtain ⟨flat', maus, hd, hg, _⟩ := ex_deep
  have hload : ((jsonLoads exEmptyMaus).bind DeepAhb.load).map (fun a => a.lines.length) = .ok 0 := by decide +kernel
  obtain ⟨expected, hl, hn⟩ := ok_of_map hload
  refine (C110_abort exCliEnv (fun b h => by cases h) _ _).2 ⟨exFsWith_pathsOk _ _ _ _ _ (.inr rfl) (.inl rfl), .inr
    ⟨exOut, maus, expected, rfl, rfl, ?_, ⟨exEmptyMaus, ⟨_, ⟨rfl, rfl⟩, by decide +kernel⟩, hl⟩, ?_⟩⟩
  · exact ⟨_, exFlatSchema, _, exSgh, _, exMig, flat', ⟨_, ⟨rfl, rfl⟩, decodeUtf8_jsonDumps _ _⟩,
      C66_flat_text_round_trip _ _ exFlatSchema_constructed, ⟨_, ⟨rfl, rfl⟩, decodeUtf8_jsonDumps _ _⟩, C66_sgh_text_round_trip _ _,
      ⟨rfl, rfl⟩, rfl, hd⟩
  · rintro ⟨_, h⟩
    have h0 : expected.lines = [] := List.length_eq_zero_iff.1 hn
    rw [h0] at h
    cases hm : maus.lines with
    | nil => rw [hm] at hg; revert hg; decide
    | cons g gs => rw [hm] at h; simp [SegmentGroup.SameButIndexList] at h

end Verif
