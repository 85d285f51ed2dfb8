import Verif.Spec.RunHistory
import Verif.Props.CliCrash
import Verif.Props.CliRaises
import Verif.Props.CliParallel
/-!
# C125: histories of runs of the command line tool
-/

namespace Verif
open FileProg

/-! ## single steps -/

/-- what a run of the tool can do to a file, at whatever moment it is interrupted -/
theorem step_content {s : FsStep} {env : CliEnv} {o : CliOptions} (hp : s.Possible) (hr : s.run = some (env, o)) (q : FsPath) :
    s.after.contentAt q = s.before.contentAt q ∨
    ∃ maus part, o.outputPath = some q ∧ o.checkPath = none ∧ Generates env s.before o maus ∧ s.after.contentAt q = some part ∧
      part <+: mausBytes maus := by
  have hi := hp env o hr
  obtain ⟨l, h1, _, h3⟩ := C58_interrupted env o ⟨s.before, []⟩
  rw [h1] at hi
  rcases h3 s.after hi with h | ⟨p, maus, part, ho, hc, hg, hsame, hcont, hpre⟩
  · rw [h]; exact .inl rfl
  · by_cases hq : q = p
    · subst hq
      exact .inr ⟨maus, part, ho, hc, hg, hcont, hpre⟩
    · exact .inl ((hsame q).2 hq).symm

theorem step_not_about {s : FsStep} (hp : s.Possible) {q : FsPath} (h : ¬ s.About q) : s.after.contentAt q = s.before.contentAt q := by
  cases hr : s.run with
  | none =>
    by_cases hc : s.after.contentAt q = s.before.contentAt q
    · exact hc
    · exact absurd (.inr ⟨hr, hc⟩) h
  | some r =>
    obtain ⟨env, o⟩ := r
    rcases step_content hp hr q with h1 | ⟨_, _, ho, hc, _⟩
    · exact h1
    · exact absurd (.inl ⟨env, o, hr, ho, hc⟩) h

theorem step_dirs {s : FsStep} {env : CliEnv} {o : CliOptions} (hp : s.Possible) (hr : s.run = some (env, o)) (q : FsPath) :
    s.after.isDir q = s.before.isDir q := by
  have hi := hp env o hr
  obtain ⟨l, h1, _, h3⟩ := C58_interrupted env o ⟨s.before, []⟩
  rw [h1] at hi
  rcases h3 s.after hi with h | ⟨p, maus, part, ho, hc, hg, hsame, hcont, hpre⟩
  · rw [h]
  · exact (hsame q).1.symm

theorem stored_of_content {env : FileEnv} {fs fs' : FsNode} {q : FsPath} {maus : DeepAhb} (h : fs'.contentAt q = fs.contentAt q)
    (hs : Stored env fs' q maus) : Stored env fs q maus := by
  unfold Stored TextAt ReadableAt at hs ⊢
  rw [h] at hs
  exact hs

/-! ## files that are not written -/

/-- **C125** (other files): a file that no step is about is, after the history, as it was before; and a history of runs of the tool, with
whatever outcomes, creates and removes no directories. -/
theorem C125_other_files (fs fs' : FsNode) (steps : List FsStep) (h : FsHistory fs steps fs') (q : FsPath) :
    ((∀ s ∈ steps, ¬ s.About q) → fs'.contentAt q = fs.contentAt q) ∧
    ((∀ s ∈ steps, s.run ≠ none) → fs'.isDir q = fs.isDir q) := by
  induction h with
  | nil fs => exact ⟨fun _ => rfl, fun _ => rfl⟩
  | cons s steps fs hp _ ih =>
    refine ⟨fun hq => ?_, fun hq => ?_⟩
    · rw [ih.1 fun s' hs' => hq s' (List.mem_cons_of_mem _ hs'), step_not_about hp (hq s List.mem_cons_self)]
    · rw [ih.2 fun s' hs' => hq s' (List.mem_cons_of_mem _ hs')]
      cases hr : s.run with
      | none => exact absurd hr (hq s List.mem_cons_self)
      | some r => exact step_dirs (env := r.1) (o := r.2) hp hr q

/-! ## nothing wrong is ever found -/

/-- **C125** (what is found): a valid MAUS that is found in a file at the end of a history was there from the beginning; or it is the MAUS
of the input files (up to the line indices) of the run that has changed the file last, as they were at this run; or another program has
stored it there, and has changed the file last. -/
theorem C125_found (files : FileEnv) (fs fs' : FsNode) (steps : List FsStep) (h : FsHistory fs steps fs') (q : FsPath) (maus' : DeepAhb)
    (hq : Stored files fs' q maus') :
    (Stored files fs q maus' ∧ ∀ s ∈ steps, s.after.contentAt q = s.before.contentAt q) ∨
    ∃ earlier s later, steps = earlier ++ s :: later ∧ (∀ s' ∈ later, s'.after.contentAt q = s'.before.contentAt q) ∧
      ((∃ env o maus, s.run = some (env, o) ∧ o.outputPath = some q ∧ o.checkPath = none ∧ Generates env s.before o maus ∧
          EqualUpToIndex maus' maus) ∨
        (s.run = none ∧ Stored files s.after q maus')) := by
  induction h with
  | nil fs => exact .inl ⟨hq, fun s hs => (by cases hs)⟩
  | cons s steps fs hp _ ih =>
    rcases ih hq with ⟨hs, hall⟩ | ⟨earlier, s', later, rfl, hl, hr⟩
    · by_cases hc : s.after.contentAt q = s.before.contentAt q
      · refine .inl ⟨stored_of_content hc hs, fun s' hs' => ?_⟩
        rcases List.mem_cons.1 hs' with rfl | hs'
        · exact hc
        · exact hall s' hs'
      · refine .inr ⟨[], s, steps, rfl, hall, ?_⟩
        cases hr : s.run with
        | none => exact .inr ⟨rfl, hs⟩
        | some r =>
          obtain ⟨env, o⟩ := r
          rcases step_content hp hr q with h1 | ⟨maus, part, ho, hcp, hg, hcont, hpre⟩
          · exact absurd h1 hc
          · refine .inl ⟨env, o, maus, rfl, ho, hcp, hg, ?_⟩
            have hpart := stored_part hcont hpre hs
            obtain ⟨t, ⟨b, ⟨hb, _⟩, ht⟩, hload⟩ := hs
            rw [hcont, hpart] at hb
            cases hb
            unfold mausBytes at ht
            rw [decodeUtf8_jsonDumps] at ht
            cases ht
            rw [load_mausBytes_ok hg hload]
            rw [show EqualUpToIndex _ _ ↔ _ from (C27_equal_up_to_index _ _).symm]
            exact (C27_idempotent maus).1
    · exact .inr ⟨s :: earlier, s', later, rfl, hl, hr⟩

/-! ## the last run -/

theorem history_split {fs fs' : FsNode} {earlier later : List FsStep} {s : FsStep} (h : FsHistory fs (earlier ++ s :: later) fs') :
    s.Possible ∧ FsHistory fs earlier s.before ∧ FsHistory s.after later fs' := by
  induction earlier generalizing fs with
  | nil =>
    cases h with
    | cons _ _ _ hp h => exact ⟨hp, .nil _, h⟩
  | cons a earlier ih =>
    cases h with
    | cons _ _ _ hp h =>
      obtain ⟨h1, h2, h3⟩ := ih h
      exact ⟨h1, .cons a earlier _ hp h2, h3⟩

/-- **C125** (what is written stays): after a successful run, and whatever takes place later that is not about its output file — other
runs, failed runs, interrupted runs, changes of the input files —, this file contains the complete text of the MAUS of the input files as
they were at this run. -/
theorem C125_last_run (fs fs' : FsNode) (earlier later : List FsStep) (s : FsStep) (h : FsHistory fs (earlier ++ s :: later) fs')
    (env : CliEnv) (o : CliOptions) (q : FsPath) (hs : s.Succeeds env o) (ho : o.outputPath = some q) (hc : o.checkPath = none)
    (hl : ∀ s' ∈ later, ¬ s'.About q) :
    ∃ maus, Generates env s.before o maus ∧ fs'.contentAt q = some (mausFile maus) := by
  obtain ⟨_, _, h3⟩ := history_split h
  obtain ⟨maus, hg, hcont⟩ := (C58_output env o ⟨s.before, []⟩ q hc ho).2.1 hs.2
  refine ⟨maus, hg, ?_⟩
  rw [(C125_other_files _ _ _ h3 q).1 hl, ← hs.1.2]
  exact hcont

section
variable {F V : Type} (cwd : FsPath) (basePath : PurePath) (toPath : F → V → PyStr → PyRes PurePath) (format : F) (version : V)
  (pruefidentifikator : PyStr)

/-- what the provider does with a file with the complete text of a generated MAUS -/
theorem provider_of_content {env : CliEnv} {fs : FsNode} {o : CliOptions} {maus : DeepAhb} (hg : Generates env fs o maus) (files : FileEnv)
    (w' : FileWorld) (rel : PurePath) (hrel : toPath format version pruefidentifikator = .ok rel)
    (hcont : w'.fs.contentAt (placeBelow cwd basePath rel) = some (mausFile maus))
    (hr : files.readDenied (placeBelow cwd basePath rel) = false) :
    ((∀ s, SegmentOccurs maus.lines s → s.sectionName ≠ none) →
      (getMaus files cwd basePath decodeUtf8 toPath format version pruefidentifikator w').1 = .ok (some maus.resetAhbLineIndex)) ∧
    ((∃ s, SegmentOccurs maus.lines s ∧ s.sectionName = none) →
      (getMaus files cwd basePath decodeUtf8 toPath format version pruefidentifikator w').1 = .error .validationError) := by
  obtain ⟨h3, h4⟩ := load_mausBytes hg
  refine ⟨fun hs => ?_, fun hs => ?_⟩
  · exact (((C60_get_maus files cwd basePath decodeUtf8 toPath format version pruefidentifikator decodeUtf8_not_missing w').2.1 rel hrel).2 _).2
      ⟨_, _, ⟨hcont, hr⟩, decodeUtf8_jsonDumps _ _, h3 hs⟩
  · rw [C60_exceptions files cwd basePath decodeUtf8 toPath format version pruefidentifikator decodeUtf8_not_missing w' rel hrel]
    exact .inl ⟨_, ⟨hcont, hr⟩, .inr ⟨_, decodeUtf8_jsonDumps _ _, h4 hs⟩⟩

/-- **C125** (the provider): the same as seen by the file based MAUS provider. After a successful run into the file in which the provider
looks, and whatever takes place later that is not about this file, `get_maus` returns the MAUS of this run without its line indices, if
every segment has a section name; otherwise it raises a `ValidationError`. -/
theorem C125_provider (fs fs' : FsNode) (earlier later : List FsStep) (s : FsStep) (h : FsHistory fs (earlier ++ s :: later) fs')
    (env : CliEnv) (o : CliOptions) (rel : PurePath) (hrel : toPath format version pruefidentifikator = .ok rel) (hs : s.Succeeds env o)
    (ho : o.outputPath = some (placeBelow cwd basePath rel)) (hc : o.checkPath = none)
    (hl : ∀ s' ∈ later, ¬ s'.About (placeBelow cwd basePath rel)) (files : FileEnv)
    (hr : files.readDenied (placeBelow cwd basePath rel) = false) (log : List FileEvent) :
    ∃ maus, Generates env s.before o maus ∧
      ((∀ x, SegmentOccurs maus.lines x → x.sectionName ≠ none) →
        (getMaus files cwd basePath decodeUtf8 toPath format version pruefidentifikator ⟨fs', log⟩).1 = .ok (some maus.resetAhbLineIndex)) ∧
      ((∃ x, SegmentOccurs maus.lines x ∧ x.sectionName = none) →
        (getMaus files cwd basePath decodeUtf8 toPath format version pruefidentifikator ⟨fs', log⟩).1 = .error .validationError) := by
  obtain ⟨maus, hg, hcont⟩ := C125_last_run fs fs' earlier later s h env o _ hs ho hc hl
  exact ⟨maus, hg, provider_of_content cwd basePath toPath format version pruefidentifikator hg files ⟨fs', log⟩ rel hrel hcont hr⟩

end

/-- the MAUS depends on the contents of the input files only -/
theorem generates_of_contents {env : CliEnv} {fs fs' : FsNode} {o o' : CliOptions} (h : ∀ q, o.IsInput q → fs'.contentAt q = fs.contentAt q)
    (h1 : o'.flatAhbPath = o.flatAhbPath) (h2 : o'.sghPath = o.sghPath) (h3 : o'.templatePath = o.templatePath)
    {maus : DeepAhb} (hg : Generates env fs o maus) : Generates env fs' o' maus := by
  obtain ⟨ft, flat, st, sgh, template, root, flat', ⟨b1, ⟨g1, g1'⟩, t1⟩, g2, ⟨b3, ⟨g3, g3'⟩, t3⟩, g4, ⟨g5, g5'⟩, g6, g7⟩ := hg
  rw [← h _ (.inl rfl), ← h1] at g1
  rw [← h _ (.inr (.inl rfl)), ← h2] at g3
  rw [← h _ (.inr (.inr rfl)), ← h3] at g5
  rw [← h1] at g1'
  rw [← h2] at g3'
  rw [← h3] at g5'
  exact ⟨ft, flat, st, sgh, template, root, flat', ⟨b1, ⟨g1, g1'⟩, t1⟩, g2, ⟨b3, ⟨g3, g3'⟩, t3⟩, g4, ⟨g5, g5'⟩, g6, g7⟩

/-- **C125** (the check): after a successful run, and whatever takes place later that is neither about its output file nor about its input
files, a check of the output file against the same input files succeeds, if every segment of the MAUS has a section name; otherwise it
raises a `ValidationError`. -/
theorem C125_check (fs fs' : FsNode) (earlier later : List FsStep) (s : FsStep) (h : FsHistory fs (earlier ++ s :: later) fs')
    (env : CliEnv) (o : CliOptions) (q : FsPath) (hs : s.Succeeds env o) (ho : o.outputPath = some q) (hc : o.checkPath = none)
    (hq : ¬ o.IsInput q) (hl : ∀ s' ∈ later, ∀ p, p = q ∨ o.IsInput p → ¬ s'.About p) (hr : env.files.readDenied q = false)
    (log : List FileEvent) :
    ∃ maus, Generates env s.before o maus ∧
      ((∀ x, SegmentOccurs maus.lines x → x.sectionName ≠ none) → (cliCommand env (o.thenCheck q) ⟨fs', log⟩).1 = .ok ()) ∧
      ((∃ x, SegmentOccurs maus.lines x ∧ x.sectionName = none) →
        (cliCommand env (o.thenCheck q) ⟨fs', log⟩).1 = .error .validationError) := by
  obtain ⟨maus, hg, hcont⟩ := C125_last_run fs fs' earlier later s h env o q hs ho hc fun s' hs' => hl s' hs' q (.inl rfl)
  obtain ⟨_, _, hrest⟩ := history_split h
  have hin : ∀ p, o.IsInput p → fs'.contentAt p = s.before.contentAt p := fun p hp => by
    have hpq : p ≠ q := fun e => hq (e ▸ hp)
    rw [(C125_other_files _ _ _ hrest p).1 fun s' hs' => hl s' hs' p (.inr hp), ← hs.1.2]
    exact (((C58_output env o ⟨s.before, []⟩ q hc ho).2.2 p).2 hpq).symm
  have hg' : Generates env fs' (o.thenCheck q) maus := generates_of_contents hin rfl rfl rfl hg
  have ht : TextAt env.files fs' q (jsonDumps cliStyle maus.dump) := ⟨_, ⟨hcont, hr⟩, decodeUtf8_jsonDumps _ _⟩
  have hreadable : ∀ {p b}, ReadableAt env.files fs' p b → fs'.exists p = true ∧ env.files.readDenied p = false := fun ⟨h1, h2⟩ =>
    ⟨by rw [exists_eq, h1]; simp, h2⟩
  have hpaths : PathsOk env.files fs' (o.thenCheck q) := by
    refine ⟨?_, fun q hq => by cases hq⟩
    obtain ⟨ft, flat, st, sgh, template, root, flat', ⟨b1, g1, _⟩, _, ⟨b3, g3, _⟩, _, g5, _⟩ := hg'
    rintro p (rfl | rfl | rfl | hp)
    · exact hreadable g1
    · exact hreadable g3
    · exact hreadable g5
    · cases hp; exact hreadable ⟨hcont, hr⟩
  obtain ⟨h3, h4⟩ := load_mausBytes hg
  refine ⟨maus, hg, fun hsec => ?_, fun hsec => ?_⟩
  · refine (C58_check env (o.thenCheck q) ⟨fs', log⟩ q rfl rfl).2.2.1.2 ⟨hpaths, maus, maus.resetAhbLineIndex, hg', ⟨_, ht, h3 hsec⟩, ?_⟩
    rw [show EqualUpToIndex _ _ ↔ _ from (C27_equal_up_to_index _ _).symm]
    exact (C27_idempotent maus).1
  · rw [(cliCommand_run env (o.thenCheck q) ⟨fs', log⟩).1 hpaths, cliMain_check env (o.thenCheck q) ⟨fs', log⟩ q rfl rfl]
    obtain ⟨r, l, hrun, hiff, _⟩ := generate_run env (o.thenCheck q) ⟨fs', log⟩
    rw [hrun, (hiff maus).2 hg']
    exact checkMaus_invalid (w := { fs := fs', log := log ++ l }) ht (h4 hsec)

/-! ## histories without interruption -/

/-- **C125** (a dictionary): in a history of runs that are not interrupted and find enough space, whether they succeed or fail, a file
that other programs leave alone behaves like an entry of a dictionary: it contains the text of the MAUS of the last successful run that was to write it
— as the input files were at this run —, or, if there is none, what it has contained before. -/
theorem C125_dictionary (fs fs' : FsNode) (steps : List FsStep) (h : FsHistory fs steps fs') (q : FsPath)
    (hf : ∀ s ∈ steps, (∃ env o, s.Ends env o ∧ env.files.space = none) ∨ s.run = none ∧ ¬ s.About q) :
    (∃ earlier s later env o maus, steps = earlier ++ s :: later ∧ s.Succeeds env o ∧ o.outputPath = some q ∧ o.checkPath = none ∧
      Generates env s.before o maus ∧ fs'.contentAt q = some (mausFile maus) ∧ ∀ s' ∈ later, s'.About q → s'.Fails) ∨
    (fs'.contentAt q = fs.contentAt q ∧ ∀ s ∈ steps, s.About q → s.Fails) := by
  induction h with
  | nil fs => exact .inr ⟨rfl, fun s hs => (by cases hs)⟩
  | cons s steps fs hp _ ih =>
    rcases ih fun s' hs' => hf s' (List.mem_cons_of_mem _ hs') with ⟨earlier, s', later, env, o, maus, rfl, h1, h2, h3, h4, h5, h6⟩ | ⟨hc, hall⟩
    · exact .inl ⟨s :: earlier, s', later, env, o, maus, rfl, h1, h2, h3, h4, h5, h6⟩
    · by_cases ha : s.About q
      swap
      · refine .inr ⟨by rw [hc, step_not_about hp ha], fun s' hs' hab => ?_⟩
        rcases List.mem_cons.1 hs' with rfl | hs'
        · exact absurd hab ha
        · exact hall s' hs' hab
      rcases hf s List.mem_cons_self with ⟨env, o, he, hsp⟩ | ⟨_, hn⟩
      swap
      · exact absurd ha hn
      have hout : o.outputPath = some q ∧ o.checkPath = none := by
        rcases ha with ⟨env', o', hr, ho, hcp⟩ | ⟨hr, _⟩
        · rw [he.1] at hr
          cases hr
          exact ⟨ho, hcp⟩
        · rw [he.1] at hr; cases hr
      cases hres : (cliCommand env o ⟨s.before, []⟩).1 with
      | ok u =>
        obtain ⟨maus, hg, hcont⟩ := (C58_output env o ⟨s.before, []⟩ q hout.2 hout.1).2.1 hres
        refine .inl ⟨[], s, steps, env, o, maus, rfl, ⟨he, hres⟩, hout.1, hout.2, hg, ?_, hall⟩
        rw [hc, ← he.2]
        exact hcont
      | error e =>
        refine .inr ⟨?_, fun s' hs' hab => ?_⟩
        · rcases C110_failed_run_changes_nothing env o ⟨s.before, []⟩ e hres with h1 | ⟨_, _, _, _, _, h1, _⟩
          · rw [hc, ← he.2, h1]
          · rw [hsp] at h1; cases h1
        · rcases List.mem_cons.1 hs' with rfl | hs'
          · exact ⟨env, o, e, he, hres⟩
          · exact hall s' hs' hab

/-! ## examples -/

theorem ends_possible {s : FsStep} {env : CliEnv} {o : CliOptions} (h : s.Ends env o) : s.Possible := by
  intro env' o' hr
  rw [h.1] at hr
  cases hr
  obtain ⟨l, h1, h2, _⟩ := C58_interrupted env o ⟨s.before, []⟩
  rw [h1, ← h.2]
  exact h2

/-- a run of the tool with the example input files, not interrupted -/
def exStep (before : FsNode) (check output : Option FsPath) : FsStep :=
  { run := some (exCliEnv, exOptions check output), before := before,
    after := (cliCommand exCliEnv (exOptions check output) ⟨before, []⟩).2.fs }

theorem exStep_ends (before : FsNode) (check output : Option FsPath) : (exStep before check output).Ends exCliEnv (exOptions check output) :=
  ⟨rfl, rfl⟩

theorem exStep_possible (before : FsNode) (check output : Option FsPath) : (exStep before check output).Possible :=
  ends_possible (exStep_ends before check output)

/-- another program removes all files but this one -/
def exCleanUp (before : FsNode) (content : Bytes) : FsStep :=
  { run := none, before := before, after := .dir [(py!"data", .dir [(py!"maus.json", .file content)])] }

theorem history_exStep {before fs : FsNode} {check output : Option FsPath} {steps : List FsStep}
    (h : FsHistory (exStep before check output).after steps fs) : FsHistory before (exStep before check output :: steps) fs :=
  .cons _ _ _ (exStep_possible before check output) h

theorem history_exCleanUp {before fs : FsNode} {content : Bytes} {steps : List FsStep}
    (h : FsHistory (exCleanUp before content).after steps fs) : FsHistory before (exCleanUp before content :: steps) fs :=
  .cons (exCleanUp before content) _ _ (fun _ _ h => by cases h) h

theorem exCleanUp_keeps {before : FsNode} {content : Bytes} (h : before.contentAt exOut = some content) :
    ¬ (exCleanUp before content).About exOut := by
  rintro (⟨_, _, h', _⟩ | ⟨_, h'⟩)
  · cases h'
  · refine h' ?_
    show _ = before.contentAt exOut
    rw [h]
    rfl

theorem exOut2_ne : (exOptions none (some exOut2)).outputPath ≠ some exOut := by
  unfold exOptions exOut exOut2
  decide

/-- a MAUS is written; then another program removes all input files; then two runs fail, one of them with the same output file. The file
still contains the MAUS (`C125_dictionary`, and the premises of this theorem) -/
theorem exHistory_dictionary {fs : FsNode} {maus : DeepAhb} (hok : (cliCommand exCliEnv (exOptions none (some exOut)) ⟨fs, []⟩).1 = .ok ())
    (hg : Generates exCliEnv fs (exOptions none (some exOut)) maus) : ∃ fs' steps,
    FsHistory fs steps fs' ∧ steps.length = 4 ∧ (∃ s ∈ steps, s.Fails ∧ s.About exOut) ∧
    (∀ s ∈ steps, (∃ env o, s.Ends env o ∧ env.files.space = none) ∨ s.run = none ∧ ¬ s.About exOut) ∧
    fs'.contentAt exOut = some (mausFile maus) := by
  obtain ⟨maus', hg', hcont⟩ := (C58_output exCliEnv (exOptions none (some exOut)) ⟨fs, []⟩ exOut rfl rfl).2.1 hok
  rw [generates_unique hg' hg] at hcont
  have hcont' : (exStep (fs) none (some exOut)).after.contentAt exOut = some (mausFile maus) := by
    unfold exStep
    dsimp only
    rw [hcont]
    rfl
  let s1 := exStep fs none (some exOut)
  let s2 := exCleanUp s1.after (mausFile maus)
  let s3 := exStep s2.after none (some exOut2)
  let s4 := exStep s3.after none (some exOut)
  have hnp : ∀ c, ¬ PathsOk exFiles (exCleanUp s1.after (mausFile maus)).after (exOptions none c) := fun c h => by
    have h1 : false = true := (h.1 _ (.inl rfl)).1
    cases h1
  have h3 : s3.after = s2.after := by
    show (cliCommand exCliEnv (exOptions none (some exOut2)) ⟨s2.after, []⟩).2.fs = _
    rw [(cliCommand_run exCliEnv (exOptions none (some exOut2)) ⟨s2.after, []⟩).2 (hnp _)]
  have h4 : s4.Fails := by
    refine ⟨_, _, .other, exStep_ends _ _ _, ?_⟩
    · show (cliCommand exCliEnv (exOptions none (some exOut)) ⟨s3.after, []⟩).1 = _
      rw [h3, (cliCommand_run exCliEnv (exOptions none (some exOut)) ⟨s2.after, []⟩).2 (hnp _)]
  have hh : FsHistory fs [s1, s2, s3, s4] s4.after :=
    history_exStep (history_exCleanUp (history_exStep (history_exStep (.nil _))))
  have hf : ∀ s ∈ [s1, s2, s3, s4], (∃ env o, s.Ends env o ∧ env.files.space = none) ∨ s.run = none ∧ ¬ s.About exOut := by
    intro s hs
    simp only [List.mem_cons, List.not_mem_nil, or_false] at hs
    rcases hs with rfl | rfl | rfl | rfl
    · exact .inl ⟨_, _, exStep_ends _ _ _, rfl⟩
    · exact .inr ⟨rfl, exCleanUp_keeps hcont'⟩
    · exact .inl ⟨_, _, exStep_ends _ _ _, rfl⟩
    · exact .inl ⟨_, _, exStep_ends _ _ _, rfl⟩
  have h4a : s4.About exOut := .inl ⟨_, _, rfl, rfl, rfl⟩
  refine ⟨s4.after, [s1, s2, s3, s4], hh, rfl, ⟨s4, by simp, h4, h4a⟩, hf, ?_⟩
  rcases C125_dictionary _ _ _ hh exOut hf with ⟨earlier, s, later, env, o, m, hsteps, hsucc, ho, _, hgen, hc, hfail⟩ | ⟨_, hall⟩
  · have hs1 : s = s1 := by
      have hmem : s ∈ [s1, s2, s3, s4] := by rw [hsteps]; simp
      simp only [List.mem_cons, List.not_mem_nil, or_false] at hmem
      rcases hmem with rfl | rfl | rfl | rfl
      · rfl
      · cases hsucc.1.1
      · cases hsucc.1.1
        exact absurd ho exOut2_ne
      · obtain ⟨env', o', e, he, hres⟩ := h4
        have h1 := he.1
        rw [hsucc.1.1] at h1
        cases h1
        have h2 := hsucc.2
        rw [hres] at h2
        cases h2
    subst hs1
    cases hsucc.1.1
    rw [generates_unique hgen hg] at hc
    exact hc
  · obtain ⟨env', o', e, he, hres⟩ := hall s1 (by simp) (.inl ⟨_, _, rfl, rfl, rfl⟩)
    cases he.1
    have h2 : (cliCommand exCliEnv (exOptions none (some exOut)) ⟨fs, []⟩).1 = .error e := hres
    rw [hok] at h2
    cases h2

example : ∃ maus, Generates exCliEnv (exFs exFlatSchema) (exOptions none (some exOut)) maus ∧ ∃ fs' steps,
    FsHistory (exFs exFlatSchema) steps fs' ∧ steps.length = 4 ∧ (∃ s ∈ steps, s.Fails ∧ s.About exOut) ∧
    (∀ s ∈ steps, (∃ env o, s.Ends env o ∧ env.files.space = none) ∨ s.run = none ∧ ¬ s.About exOut) ∧
    fs'.contentAt exOut = some (mausFile maus) := by
  obtain ⟨flat', maus, hd, _⟩ := ex_deep
  have hg := ex_generates exFlatSchema_constructed hd none (some exOut)
  exact ⟨maus, hg, exHistory_dictionary (ex_output exFlatSchema_constructed hd []) hg⟩

theorem exFlatSchema_sections {flat' : FlatAhb} {maus : DeepAhb} (hd : toDeepAhb (migLookup exMig) exPosStr exFlatSchema exSgh = .ok (flat', maus)) :
    ∀ s, SegmentOccurs maus.lines s → s.sectionName ≠ none := by
  intro s hs
  obtain ⟨l, hl, hsn⟩ := (toDeepAhb_constructed hd (by decide +kernel)).2.2 s hs
  rw [hsn]
  have hall : ∀ l ∈ exFlatSchema.lines, l.sectionName ≠ none := by decide +kernel
  exact hall l hl

/-- a MAUS is written; then another program removes the input files, and a run for another file fails: the provider returns the MAUS
(`C125_provider`) -/
theorem exHistory_provider {fs : FsNode} {maus : DeepAhb} (hok : (cliCommand exCliEnv (exOptions none (some exOut)) ⟨fs, []⟩).1 = .ok ())
    (hg : Generates exCliEnv fs (exOptions none (some exOut)) maus) (hsec : ∀ s, SegmentOccurs maus.lines s → s.sectionName ≠ none)
    (log : List FileEvent) : ∃ fs' steps, FsHistory fs steps fs' ∧ fs'.contentAt [py!"data", py!"flat.json"] = none ∧
    (getMaus exFiles [] exDataDir decodeUtf8 exOutPath py!"UTILMD" py!"FV2204" py!"11042" ⟨fs', log⟩).1 = .ok (some maus.resetAhbLineIndex) := by
  obtain ⟨maus', hg', hcont⟩ := (C58_output exCliEnv (exOptions none (some exOut)) ⟨fs, []⟩ exOut rfl rfl).2.1 hok
  rw [generates_unique hg' hg] at hcont
  have hcont' : (exStep (fs) none (some exOut)).after.contentAt exOut = some (mausFile maus) := by
    unfold exStep
    dsimp only
    rw [hcont]
    rfl
  let s1 := exStep fs none (some exOut)
  let s2 := exCleanUp s1.after (mausFile maus)
  let s3 := exStep s2.after none (some exOut2)
  have hnp : ∀ c, ¬ PathsOk exFiles (exCleanUp s1.after (mausFile maus)).after (exOptions none c) := fun c h => by
    have h1 : false = true := (h.1 _ (.inl rfl)).1
    cases h1
  have h3 : s3.after = s2.after := by
    show (cliCommand exCliEnv (exOptions none (some exOut2)) ⟨s2.after, []⟩).2.fs = _
    rw [(cliCommand_run exCliEnv (exOptions none (some exOut2)) ⟨s2.after, []⟩).2 (hnp _)]
  have hh : FsHistory fs ([] ++ s1 :: [s2, s3]) s3.after :=
    history_exStep (history_exCleanUp (history_exStep (.nil _)))
  have hl : ∀ s' ∈ [s2, s3], ¬ s'.About exOut := by
    intro s hs
    simp only [List.mem_cons, List.not_mem_nil, or_false] at hs
    rcases hs with rfl | rfl
    · exact exCleanUp_keeps hcont'
    · rintro (⟨_, _, h, ho, _⟩ | ⟨h, _⟩)
      · cases h
        exact absurd ho exOut2_ne
      · cases h
  obtain ⟨m, hgm, hm, _⟩ := C125_provider [] exDataDir exOutPath py!"UTILMD" py!"FV2204" py!"11042" _ _ [] [s2, s3] s1 hh exCliEnv
    (exOptions none (some exOut)) _ rfl ⟨exStep_ends _ _ _, hok⟩ rfl rfl hl exFiles rfl log
  rw [generates_unique hgm hg] at hm
  exact ⟨s3.after, _, hh, by rw [h3]; rfl, hm hsec⟩

example (log : List FileEvent) : ∃ maus, Generates exCliEnv (exFs exFlatSchema) (exOptions none (some exOut)) maus ∧ ∃ fs' steps,
    FsHistory (exFs exFlatSchema) steps fs' ∧ fs'.contentAt [py!"data", py!"flat.json"] = none ∧
    (getMaus exFiles [] exDataDir decodeUtf8 exOutPath py!"UTILMD" py!"FV2204" py!"11042" ⟨fs', log⟩).1 = .ok (some maus.resetAhbLineIndex) := by
  obtain ⟨flat', maus, hd, _⟩ := ex_deep
  have hg := ex_generates exFlatSchema_constructed hd none (some exOut)
  exact ⟨maus, hg, exHistory_provider (ex_output exFlatSchema_constructed hd []) hg (exFlatSchema_sections hd) log⟩

/-- two MAUS files are written, and the first one is checked afterwards (`C125_check`) -/
example (log : List FileEvent) : ∃ fs' steps, FsHistory (exFs exFlatSchema) steps fs' ∧ steps.length = 2 ∧
    (cliCommand exCliEnv ((exOptions none (some exOut)).thenCheck exOut) ⟨fs', log⟩).1 = .ok () := by
  obtain ⟨flat', maus, hd, _⟩ := ex_deep
  have hok := ex_output exFlatSchema_constructed hd []
  have hg := ex_generates exFlatSchema_constructed hd none (some exOut)
  let s1 := exStep (exFs exFlatSchema) none (some exOut)
  let s2 := exStep s1.after none (some exOut2)
  have hh : FsHistory (exFs exFlatSchema) ([] ++ s1 :: [s2]) s2.after :=
    history_exStep (history_exStep (.nil _))
  obtain ⟨m, hgm, hm, _⟩ := C125_check _ _ [] [s2] s1 hh exCliEnv (exOptions none (some exOut)) exOut ⟨exStep_ends _ _ _, hok⟩ rfl rfl
    (by rintro (h | h | h) <;> revert h <;> decide) (by
      intro s hs p hp
      rw [List.mem_singleton.1 hs]
      rintro (⟨_, _, h, ho, _⟩ | ⟨h, _⟩)
      · cases h
        cases ho
        rcases hp with h | h | h | h <;> revert h <;> decide
      · cases h) rfl log
  rw [generates_unique hgm hg] at hm
  exact ⟨s2.after, _, hh, rfl, hm (exFlatSchema_sections hd)⟩

end Verif
