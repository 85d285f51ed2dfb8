import Verif.Proofs.Cli
import Verif.Props.Deep
import Verif.Props.JsonText
import Verif.Props.MigXml
import Verif.Proofs.FileText
import Verif.Proofs.DeepComplete
/-!
# C58, C59: the command line tool
-/

namespace Verif
open FileProg

/-! ## C58 -/

/-- **C58** unless exactly one of output path and check path is given, the command fails and touches no file; if click accepts the
paths, then it fails with `click.Abort`. -/
theorem C58_ambiguous (env : CliEnv) (o : CliOptions) (w : FileWorld) (h : o.checkPath.isSome = o.outputPath.isSome) :
    (cliCommand env o w).1 ≠ .ok () ∧ (PathsOk env.files w.fs o → (cliCommand env o w).1 = .error .abort) ∧
    (cliCommand env o w).2.fs = w.fs ∧
    ∃ l, (cliCommand env o w).2.log = w.log ++ l ∧ ∀ e ∈ l, e.touches = none := by
  obtain ⟨h1, h2⟩ := cliCommand_run env o w
  by_cases hp : PathsOk env.files w.fs o
  · rw [h1 hp, cliMain_ambiguous env o w h]
    exact ⟨by simp, fun _ => rfl, rfl, [.said false], rfl, fun e he => by rw [List.mem_singleton.1 he]; rfl⟩
  · rw [h2 hp]
    exact ⟨by simp, fun h => absurd h hp, rfl, [], (List.append_nil _).symm, fun e he => (by cases he)⟩

theorem canWrite_iff {env : FileEnv} {fs : FsNode} {p : FsPath} {content : Bytes} :
    CanWrite env fs p content.length ↔ (∃ fs', fs.store content p = .ok fs') ∧ env.writeDenied p = false ∧
      ∀ n, env.space = some n → content.length ≤ n := by
  unfold CanWrite
  refine and_congr ?_ Iff.rfl
  rw [store_ok_iff]
  have h1 : fs.contentAt p ≠ none ↔ ∃ b, fs.resolve p = .ok (.file b) := by
    simp only [← contentAt_eq_some]
    cases fs.contentAt p <;> simp
  have h2 : fs.isDir p = false ↔ ∀ es, fs.resolve p ≠ .ok (.dir es) := by
    rw [← Bool.not_eq_true, isDir_eq_true]
    simp
  rw [h1, h2]
  refine or_congr Iff.rfl (and_congr ?_ Iff.rfl)
  simp only [isDir_eq_true]
  constructor
  · rintro ⟨d, c, rfl, es, h⟩; exact ⟨d, c, es, rfl, h⟩
  · rintro ⟨d, c, es, rfl, h⟩; exact ⟨d, c, rfl, es, h⟩

/-- the text of the MAUS as it is written to a file -/
def mausBytes (maus : DeepAhb) : Bytes := encodeUtf8 (jsonDumps cliStyle maus.dump)

/-- all that the command does with an output path -/
theorem output_run (env : CliEnv) (o : CliOptions) (w : FileWorld) (p : FsPath) (hc : o.checkPath = none) (ho : o.outputPath = some p) :
    (∃ e l, cliCommand env o w = (.error e, { fs := w.fs, log := w.log ++ l }) ∧ (∀ e ∈ l, e.changes = none) ∧
      ¬ (PathsOk env.files w.fs o ∧ ∃ maus, Generates env w.fs o maus ∧ CanWrite env.files w.fs p (mausBytes maus).length)) ∨
    (∃ r l maus part fs0 fs', PathsOk env.files w.fs o ∧ Generates env w.fs o maus ∧ part <+: mausBytes maus ∧
      cliCommand env o w = (r, { fs := fs', log := w.log ++ l ++ [.truncated p, .wrote p part] }) ∧ (∀ e ∈ l, e.changes = none) ∧
      w.fs.store [] p = .ok fs0 ∧ fs0.store part p = .ok fs' ∧ w.fs.store part p = .ok fs' ∧
      (r = .ok () ↔ part = mausBytes maus) ∧ (r = .ok () ↔ CanWrite env.files w.fs p (mausBytes maus).length)) := by
  obtain ⟨h1, h2⟩ := cliCommand_run env o w
  by_cases hp : PathsOk env.files w.fs o
  swap
  · rw [h2 hp]
    exact .inl ⟨_, [], by rw [List.append_nil], fun e he => (by cases he), fun h => hp h.1⟩
  rw [h1 hp, cliMain_output env o w p hc ho]
  obtain ⟨r, l, h3, h4, h5⟩ := generate_run env o w
  have hl : ∀ e ∈ l, e.changes = none := fun e he => by
    obtain ⟨q, _, rfl⟩ := h5 e he; rfl
  rw [h3]
  cases r with
  | error e =>
    refine .inl ⟨e, l, rfl, hl, ?_⟩
    rintro ⟨_, maus, hm, _⟩
    cases (h4 maus).2 hm
  | ok maus =>
    dsimp only
    have hg := (h4 maus).1 rfl
    unfold writeMaus
    rcases writeBytes_cases env.files p (mausBytes maus) { fs := w.fs, log := w.log ++ l } with ⟨e, he, hn⟩ |
      ⟨part, fs0, fs', hpre, hd, hs0, hs1, hs2, hsp, he⟩
    · unfold mausBytes at he
      rw [he]
      refine .inl ⟨e, l, rfl, hl, ?_⟩
      rintro ⟨_, maus', hm', hcan⟩
      have hmm := (h4 maus').2 hm'
      injection hmm with hmm
      subst hmm
      rw [canWrite_iff] at hcan
      rcases hn with hn | hn
      · rw [hn] at hcan; cases hcan.2.1
      · obtain ⟨fs', h⟩ := hcan.1
        exact hn fs' h
    · unfold mausBytes at he
      rw [he]
      refine .inr ⟨_, l, maus, part, fs0, fs', hp, hg, hpre, rfl, hl, hs0, hs1, hs2, ?_, ?_⟩
      · unfold mausBytes; split <;> simp [*]
      · rw [canWrite_iff]
        have h6 : ∃ fs', w.fs.store (mausBytes maus) p = .ok fs' := (store_store hs2).2
        have h7 : (if part = encodeUtf8 (jsonDumps cliStyle maus.dump) then (Except.ok () : PyRes Unit) else .error .other) = .ok () ↔
            part = mausBytes maus := by unfold mausBytes; split <;> simp [*]
        rw [h7, hsp]
        exact ⟨fun h => ⟨h6, hd, h⟩, fun h => h.2.2⟩

/-- **C58** with an output path, the command succeeds iff click accepts the paths, the input files have a MAUS and it can be
written; then the output file contains the text of this MAUS. Whether it succeeds or not, nothing else is changed. -/
theorem C58_output (env : CliEnv) (o : CliOptions) (w : FileWorld) (p : FsPath) (hc : o.checkPath = none) (ho : o.outputPath = some p) :
    ((cliCommand env o w).1 = .ok () ↔ PathsOk env.files w.fs o ∧
      ∃ maus, Generates env w.fs o maus ∧ CanWrite env.files w.fs p (mausBytes maus).length) ∧
    ((cliCommand env o w).1 = .ok () → ∃ maus, Generates env w.fs o maus ∧
      (cliCommand env o w).2.fs.contentAt p = some (encodeUtf8 (jsonDumps { indent := some 2, ensureAscii := false, sortKeys := true } maus.dump))) ∧
    w.fs.SameExcept p (cliCommand env o w).2.fs := by
  rcases output_run env o w p hc ho with ⟨e, l, h1, h2, h3⟩ | ⟨r, l, maus, part, fs0, fs', hp, hg, hpre, h1, hl, hs0, hs1, hs2, hr, hr'⟩
  · rw [h1]
    exact ⟨⟨fun h => (by cases h), fun h => absurd h h3⟩, fun h => (by cases h), sameExcept_refl _ _⟩
  · rw [h1]
    refine ⟨⟨fun h => ⟨hp, maus, hg, hr'.1 h⟩, ?_⟩, fun h => ⟨maus, hg, ?_⟩, store_sameExcept hs2⟩
    · rintro ⟨_, maus', hg', hcan⟩
      rw [generates_unique hg' hg] at hcan
      exact hr'.2 hcan
    · have := contentAt_store hs2
      rw [hr.1 h] at this
      exact this

/-- **C58** with a check path, no file is changed, and the command succeeds iff click accepts the paths, the input files have a
MAUS, the file contains a valid MAUS, and the two are equal up to the line indices. If they are not equal, it fails with
`click.Abort`. -/
theorem C58_check (env : CliEnv) (o : CliOptions) (w : FileWorld) (p : FsPath) (hc : o.checkPath = some p) (ho : o.outputPath = none) :
    (cliCommand env o w).2.fs = w.fs ∧
    (∃ l, (cliCommand env o w).2.log = w.log ++ l ∧ ∀ e ∈ l, e.changes = none) ∧
    ((cliCommand env o w).1 = .ok () ↔ PathsOk env.files w.fs o ∧
      ∃ maus expected, Generates env w.fs o maus ∧ Stored env.files w.fs p expected ∧ EqualUpToIndex expected maus) ∧
    ∀ maus expected, PathsOk env.files w.fs o → Generates env w.fs o maus → Stored env.files w.fs p expected →
      ¬ EqualUpToIndex expected maus → (cliCommand env o w).1 = .error .abort := by
  have heq : ∀ a b : DeepAhb, a.resetAhbLineIndex = b.resetAhbLineIndex ↔ EqualUpToIndex a b := C27_equal_up_to_index
  obtain ⟨h1, h2⟩ := cliCommand_run env o w
  by_cases hp : PathsOk env.files w.fs o
  swap
  · rw [h2 hp]
    exact ⟨rfl, ⟨[], (List.append_nil _).symm, fun e he => (by cases he)⟩, ⟨fun h => (by cases h), fun h => absurd h.1 hp⟩,
      fun _ _ h => absurd h hp⟩
  rw [h1 hp, cliMain_check env o w p hc ho]
  obtain ⟨r, l, h3, h4, h5⟩ := generate_run env o w
  have hl : ∀ e ∈ l, e.changes = none := fun e he => by
    obtain ⟨q, _, rfl⟩ := h5 e he; rfl
  rw [h3]
  cases r with
  | error e =>
    refine ⟨rfl, ⟨l, rfl, hl⟩, ⟨fun h => (by cases h), ?_⟩, ?_⟩
    · rintro ⟨_, maus, _, hm, _⟩
      cases (h4 maus).2 hm
    · intro maus _ _ hm
      cases (h4 maus).2 hm
  | ok maus =>
    dsimp only
    have hg := (h4 maus).1 rfl
    obtain ⟨r', l', h6, h7, h8, h9⟩ := checkMaus_run env.files maus p { fs := w.fs, log := w.log ++ l }
    rw [h6]
    refine ⟨rfl, ⟨l ++ l', by rw [List.append_assoc], ?_⟩, ?_, ?_⟩
    · intro e he
      rcases List.mem_append.1 he with he | he
      · exact hl e he
      · rcases h9 e he with rfl | ⟨g, rfl⟩ <;> rfl
    · rw [show (r' = .ok () ↔ _) from h7]
      constructor
      · rintro ⟨expected, hs, he⟩
        exact ⟨hp, maus, expected, hg, hs, (heq _ _).1 he⟩
      · rintro ⟨_, maus', expected, hg', hs, he⟩
        rw [generates_unique hg' hg] at he
        exact ⟨expected, hs, (heq _ _).2 he⟩
    · intro maus' expected _ hg' hs he
      rw [generates_unique hg' hg] at he
      exact h8 expected hs fun h => he ((heq _ _).1 h)

theorem interrupted_reads {fs fs' : FsNode} {log : List FileEvent} (h : Interrupted fs log fs') (hl : ∀ e ∈ log, e.changes = none) :
    fs' = fs := by
  induction h with
  | now => rfl
  | «while» fs fs' p content part log h1 h2 => cases hl (.wrote p content) (by simp)
  | later fs fs' fs'' e log he _ ih =>
    have := hl e (by simp)
    have hee : fs = fs' := by cases e <;> first | exact he | cases this
    rw [ih fun e h => hl e (List.mem_cons_of_mem _ h), hee]

theorem interrupted_append {fs fs' : FsNode} {l l' : List FileEvent} (h : Interrupted fs (l ++ l') fs') (hl : ∀ e ∈ l, e.changes = none) :
    Interrupted fs l' fs' := by
  induction l with
  | nil => exact h
  | cons e l ih =>
    cases h with
    | now => exact .now _ _
    | «while» _ _ p content part log h1 h2 => cases hl (.wrote p content) (by simp)
    | later _ fs1 _ _ _ he h =>
      have := hl e (by simp)
      have hee : fs = fs1 := by cases e <;> first | exact he | cases this
      subst hee
      exact ih h fun e h => hl e (List.mem_cons_of_mem _ h)

theorem interrupted_prepend {fs fs' : FsNode} {l l' : List FileEvent} (h : Interrupted fs l' fs') (hl : ∀ e ∈ l, e.changes = none) :
    Interrupted fs (l ++ l') fs' := by
  induction l with
  | nil => exact h
  | cons e l ih =>
    refine .later _ fs _ e _ ?_ (ih fun e h => hl e (List.mem_cons_of_mem _ h))
    have := hl e (by simp)
    cases e <;> first | rfl | cases this

/-- **C58** at whatever moment the command is interrupted: nothing but the output file has been changed; nothing at all has been
changed if there is no output path, or if there is no MAUS for the input files; and if the output file has been changed, then it
contains an initial part of the text of the MAUS. -/
theorem C58_interrupted (env : CliEnv) (o : CliOptions) (w : FileWorld) : ∃ l, (cliCommand env o w).2.log = w.log ++ l ∧
    Interrupted w.fs l (cliCommand env o w).2.fs ∧
    ∀ fs, Interrupted w.fs l fs → fs = w.fs ∨
      ∃ p maus part, o.outputPath = some p ∧ o.checkPath = none ∧ Generates env w.fs o maus ∧ w.fs.SameExcept p fs ∧
        fs.contentAt p = some part ∧ part <+: encodeUtf8 (jsonDumps { indent := some 2, ensureAscii := false, sortKeys := true } maus.dump) := by
  by_cases hm : o.checkPath.isSome = o.outputPath.isSome
  · obtain ⟨_, _, h1, l, h2, h3⟩ := C58_ambiguous env o w hm
    have h4 : ∀ e ∈ l, e.changes = none := fun e he => by
      have := h3 e he; cases e <;> first | rfl | cases this
    exact ⟨l, h2, h1 ▸ .now _ _, fun fs h => .inl (interrupted_reads h h4)⟩
  · cases hc : o.checkPath with
    | some p =>
      have ho : o.outputPath = none := by cases ho : o.outputPath <;> simp [hc, ho] at hm ⊢
      obtain ⟨h1, ⟨l, h2, h3⟩, _⟩ := C58_check env o w p hc ho
      exact ⟨l, h2, h1 ▸ .now _ _, fun fs h => .inl (interrupted_reads h h3)⟩
    | none =>
      cases ho : o.outputPath with
      | none => simp [hc, ho] at hm
      | some p =>
        rcases output_run env o w p hc ho with ⟨e, l, h1, h2, h3⟩ |
          ⟨r, l, maus, part, fs0, fs', hp, hg, hpre, h1, hl, hs0, hs1, hs2, hr, hr'⟩
        · rw [h1]
          exact ⟨l, rfl, .now _ _, fun fs h => .inl (interrupted_reads h h2)⟩
        · rw [h1]
          refine ⟨l ++ [.truncated p, .wrote p part], by rw [List.append_assoc], ?_, fun fs h => ?_⟩
          · exact interrupted_prepend (.later _ fs0 _ _ _ hs0 (.later _ fs' _ _ _ hs1 (.now _ _))) hl
          · have h := interrupted_append h hl
            have key : ∀ part', part' <+: mausBytes maus → w.fs.store part' p = .ok fs → w.fs.SameExcept p fs ∧
                fs.contentAt p = some part' ∧ part' <+: encodeUtf8 (jsonDumps cliStyle maus.dump) :=
              fun part' h1 h2 => ⟨store_sameExcept h2, contentAt_store h2, h1⟩
            have key' : ∀ part', part' <+: mausBytes maus → w.fs.store part' p = .ok fs →
                fs = w.fs ∨ ∃ p_1 maus part, some p = some p_1 ∧ True ∧ Generates env w.fs o maus ∧ w.fs.SameExcept p_1 fs ∧
                  fs.contentAt p_1 = some part ∧ part <+: encodeUtf8 (jsonDumps cliStyle maus.dump) :=
              fun part' h1 h2 => .inr ⟨p, maus, part', rfl, trivial, hg, key part' h1 h2⟩
            simp only [true_and] at key' ⊢
            cases h with
            | now => exact .inl rfl
            | later _ fs1 _ _ _ he h =>
              have he : w.fs.store [] p = .ok fs1 := he
              cases h with
              | now => exact key' [] List.nil_prefix he
              | «while» _ _ _ _ part' _ h1 h2 =>
                rw [(store_store (content' := part') he).1] at h2
                exact key' part' (h1.trans hpre) h2
              | later _ fs2 _ _ _ he' h =>
                have he' : fs1.store part p = .ok fs2 := he'
                rw [(store_store (content' := part) he).1] at he'
                cases h with
                | now => exact key' part hpre he'

/-! ## C59 -/

theorem readableAt_congr {env : FileEnv} {fs fs' : FsNode} {p q : FsPath} (h : fs.SameExcept p fs') (hq : q ≠ p) {b : Bytes} :
    ReadableAt env fs' q b ↔ ReadableAt env fs q b := by
  unfold ReadableAt
  rw [(h q).2 hq]

theorem textAt_congr {env : FileEnv} {fs fs' : FsNode} {p q : FsPath} (h : fs.SameExcept p fs') (hq : q ≠ p) {t : PyStr} :
    TextAt env fs' q t ↔ TextAt env fs q t := by
  unfold TextAt
  simp only [readableAt_congr h hq]

/-- the MAUS depends on the input files only -/
theorem generates_congr {env : CliEnv} {fs fs' : FsNode} {o o' : CliOptions} {p : FsPath} (h : fs.SameExcept p fs')
    (hp : ¬ o.IsInput p) (h1 : o'.flatAhbPath = o.flatAhbPath) (h2 : o'.sghPath = o.sghPath) (h3 : o'.templatePath = o.templatePath)
    {maus : DeepAhb} : Generates env fs' o' maus ↔ Generates env fs o maus := by
  unfold Generates
  rw [h1, h2, h3]
  simp only [textAt_congr h fun hq => hp (.inl hq.symm), textAt_congr h fun hq => hp (.inr (.inl hq.symm)),
    readableAt_congr h fun hq => hp (.inr (.inr hq.symm))]

theorem checkMaus_invalid {env : FileEnv} {maus : DeepAhb} {p : FsPath} {w : FileWorld} {t : PyStr} {e : Exc}
    (ht : TextAt env w.fs p t) (hl : (jsonLoads t).bind DeepAhb.load = .error e) : (checkMaus env maus p w).1 = .error e := by
  unfold checkMaus
  have h := readText_ok.2 ht
  rcases hr : readText env p w with ⟨r, w'⟩
  rw [hr] at h
  dsimp only at h
  subst h
  rw [seq_of_ok hr, seq_of_error (prog := FileProg.lift _) (w := w') (e := e) (w' := w')]
  unfold FileProg.lift
  rw [hl]

/-- the options of the second run: the written file is to be checked -/
def CliOptions.thenCheck (o : CliOptions) (p : FsPath) : CliOptions := { o with checkPath := some p, outputPath := none }

/-- **C59 (exact)** after a successful run with an output path that is none of the input files and can be read: the same command
with this path as check path succeeds iff every segment of the MAUS has a section name; otherwise it fails with a
`ValidationError`, because the schema has written a `null` which it does not accept when reading. -/
theorem C59_check_after_output_exact (env : CliEnv) (o : CliOptions) (w w' : FileWorld) (p : FsPath) (hc : o.checkPath = none)
    (ho : o.outputPath = some p) (hok : (cliCommand env o w).1 = .ok ()) (hp : ¬ o.IsInput p) (hr : env.files.readDenied p = false)
    (hw : w'.fs = (cliCommand env o w).2.fs) : ∃ maus, Generates env w.fs o maus ∧
      ((∀ s, SegmentOccurs maus.lines s → s.sectionName ≠ none) → (cliCommand env (o.thenCheck p) w').1 = .ok ()) ∧
      ((∃ s, SegmentOccurs maus.lines s ∧ s.sectionName = none) →
        (cliCommand env (o.thenCheck p) w').1 = .error .validationError) := by
  obtain ⟨h1, h2, h3⟩ := C58_output env o w p hc ho
  obtain ⟨maus, hg, hcont⟩ := h2 hok
  obtain ⟨hpaths, _⟩ := h1.1 hok
  rw [← hw] at h3 hcont
  have hg' : Generates env w'.fs (o.thenCheck p) maus := (generates_congr h3 hp rfl rfl rfl).2 hg
  have ht : TextAt env.files w'.fs p (jsonDumps cliStyle maus.dump) := ⟨_, ⟨hcont, hr⟩, decodeUtf8_jsonDumps _ _⟩
  have hex : w'.fs.exists p = true := by
    rw [exists_eq, hcont]; simp
  have hpaths' : PathsOk env.files w'.fs (o.thenCheck p) := by
    refine ⟨?_, fun q hq => by cases hq⟩
    have hin : ∀ q, q = o.flatAhbPath ∨ q = o.sghPath ∨ q = o.templatePath → w'.fs.exists q = true ∧ env.files.readDenied q = false := by
      intro q hq
      have hq' : q ≠ p := fun h => hp (h ▸ hq)
      have := hpaths.1 q (by rcases hq with h | h | h <;> simp [h])
      rw [← SameExcept.exists h3 hq']
      exact this
    rintro q (hq | hq | hq | hq)
    · exact hin q (.inl hq)
    · exact hin q (.inr (.inl hq))
    · exact hin q (.inr (.inr hq))
    · cases hq; exact ⟨hex, hr⟩
  obtain ⟨flatText, flat, sghText, sgh, template, root, flat', _, hflat, _, _, _, _, hdeep⟩ := hg
  have hmeta : AhbMetaInformation.new flat.ahbMeta = .ok flat.ahbMeta := by
    rcases hj : jsonLoads flatText with _ | j
    · rw [hj] at hflat; cases hflat
    · rw [hj] at hflat
      exact (C63_loaded_flat_is_valid j flat hflat).2.1
  obtain ⟨hcon, hcomp, _⟩ := toDeepAhb_constructed hdeep hmeta
  obtain ⟨ht1, ht2⟩ := C66_deep_text_round_trip_exact cliStyle maus hcon
  refine ⟨maus, (generates_congr h3 hp rfl rfl rfl).1 hg', fun hs => ?_, ?_⟩
  · refine (C58_check env (o.thenCheck p) w' p rfl rfl).2.2.1.2 ⟨hpaths', maus, maus.resetAhbLineIndex, hg', ⟨_, ht, ht1 (hcomp.2 hs)⟩, ?_⟩
    rw [show EqualUpToIndex _ _ ↔ _ from (C27_equal_up_to_index _ _).symm]
    exact (C27_idempotent maus).1
  · rintro ⟨s, hs, hn⟩
    have hinv := ht2 fun hco => hcomp.1 hco s hs hn
    rw [(cliCommand_run env (o.thenCheck p) w').1 hpaths', cliMain_check env (o.thenCheck p) w' p rfl rfl]
    obtain ⟨r, l, hrun, hiff, _⟩ := generate_run env (o.thenCheck p) w'
    rw [hrun, (hiff maus).2 hg']
    exact checkMaus_invalid (w := { fs := w'.fs, log := w'.log ++ l }) ht hinv

/-- **C59** if every line of the flat AHB has a section name, then a successful run with an output path is followed by a successful
check of the written file.
Missing for C59 as stated: flat AHBs with lines without section name (`C59_fails_without_section_name`); output paths that are
input files, and files that cannot be read back. -/
theorem C59_check_after_output_partial (env : CliEnv) (o : CliOptions) (w w' : FileWorld) (p : FsPath) (hc : o.checkPath = none)
    (ho : o.outputPath = some p) (hok : (cliCommand env o w).1 = .ok ()) (hp : ¬ o.IsInput p) (hr : env.files.readDenied p = false)
    (hw : w'.fs = (cliCommand env o w).2.fs)
    (hs : ∀ t flat, TextAt env.files w.fs o.flatAhbPath t → (jsonLoads t).bind FlatAhb.load = .ok flat →
      ∀ l ∈ flat.lines, l.sectionName ≠ none) : (cliCommand env (o.thenCheck p) w').1 = .ok () := by
  obtain ⟨maus, hg, h1, _⟩ := C59_check_after_output_exact env o w w' p hc ho hok hp hr hw
  refine h1 fun s h => ?_
  obtain ⟨flatText, flat, sghText, sgh, template, root, flat', htext, hflat, _, _, _, _, hdeep⟩ := hg
  have hmeta : AhbMetaInformation.new flat.ahbMeta = .ok flat.ahbMeta := by
    rcases hj : jsonLoads flatText with _ | j
    · rw [hj] at hflat; cases hflat
    · rw [hj] at hflat
      exact (C63_loaded_flat_is_valid j flat hflat).2.1
  obtain ⟨l, hl, hsn⟩ := (toDeepAhb_constructed hdeep hmeta).2.2 s h
  rw [hsn]
  exact hs flatText flat htext hflat l hl

/-! ## examples -/

/-- everything may be read and written, and there is space -/
def exFiles : FileEnv := { readDenied := fun _ => false, writeDenied := fun _ => false, space := none }

/-- every template contains the example MIG -/
def exCliEnv : CliEnv := { files := exFiles, parseXml := fun _ => .ok exMig, posStr := exPosStr }

/-- two JSON files and a template in one directory -/
def exFs (flat : FlatAhb) : FsNode :=
  .dir [(py!"data", .dir [
    (py!"flat.json", .file (encodeUtf8 (jsonDumps exDefaultStyle flat.dump))),
    (py!"sgh.json", .file (encodeUtf8 (jsonDumps exCliStyle exSgh.dump))),
    (py!"utilmd.template", .file [60, 63])])]

/-- the options: an output file in the same directory -/
def exOptions (check output : Option FsPath) : CliOptions :=
  { flatAhbPath := [py!"data", py!"flat.json"], sghPath := [py!"data", py!"sgh.json"], templatePath := [py!"data", py!"utilmd.template"],
    checkPath := check, outputPath := output }

/-- the output file -/
def exOut : FsPath := [py!"data", py!"maus.json"]

theorem ex_generates {flat : FlatAhb} (h : flat.Constructed) {flat' : FlatAhb} {maus : DeepAhb}
    (hd : toDeepAhb (migLookup exMig) exPosStr flat exSgh = .ok (flat', maus)) (c p : Option FsPath) :
    Generates exCliEnv (exFs flat) (exOptions c p) maus :=
  ⟨_, flat, _, exSgh, _, exMig, flat', ⟨_, ⟨rfl, rfl⟩, decodeUtf8_jsonDumps _ _⟩, C66_flat_text_round_trip _ flat h,
    ⟨_, ⟨rfl, rfl⟩, decodeUtf8_jsonDumps _ _⟩, C66_sgh_text_round_trip _ _, ⟨rfl, rfl⟩, rfl, hd⟩

theorem ex_pathsOk (flat : FlatAhb) : PathsOk exFiles (exFs flat) (exOptions none (some exOut)) := by
  refine ⟨?_, fun p hp => ?_⟩
  · rintro p (h | h | h | h)
    · subst h; exact ⟨rfl, rfl⟩
    · subst h; exact ⟨rfl, rfl⟩
    · subst h; exact ⟨rfl, rfl⟩
    · cases h
  · cases hp; exact ⟨rfl, fun _ => rfl⟩

theorem ex_output {flat : FlatAhb} (h : flat.Constructed) {flat' : FlatAhb} {maus : DeepAhb}
    (hd : toDeepAhb (migLookup exMig) exPosStr flat exSgh = .ok (flat', maus)) (log : List FileEvent) :
    (cliCommand exCliEnv (exOptions none (some exOut)) ⟨exFs flat, log⟩).1 = .ok () :=
  (C58_output exCliEnv (exOptions none (some exOut)) ⟨exFs flat, log⟩ exOut rfl rfl).1.2
    ⟨ex_pathsOk flat, maus, ex_generates h hd _ _, .inr ⟨⟨[py!"data"], py!"maus.json", rfl, rfl⟩, rfl⟩, rfl, fun n hn => by cases hn⟩

theorem exFlatSchema_constructed : exFlatSchema.Constructed := by
  refine ⟨by decide +kernel, by decide +kernel, ?_⟩
  have h : ∀ l ∈ exFlatSchema.lines, AhbLine.new l = .ok l ∧ l.guid = some 0x6fd1a3b2c4d5e6f708192a3b4c5d6e7f := by
    decide +kernel
  intro l hl
  obtain ⟨h1, h2⟩ := h l hl
  refine ⟨h1, fun g hg => ?_⟩
  rw [h2] at hg
  cases hg
  decide

/-- the example AHB has a MAUS with two groups and five segments -/
theorem ex_deep : ∃ flat' maus, toDeepAhb (migLookup exMig) exPosStr exFlatSchema exSgh = .ok (flat', maus) ∧
    groupAddresses maus.lines = [[0], [1]] ∧ ((documentOrder maus.lines).filterMap DocItem.segmentLineIndex).length = 5 := by
  have h : (toDeepAhb (migLookup exMig) exPosStr exFlatSchema exSgh).map (fun r => (groupAddresses r.2.lines,
      ((documentOrder r.2.lines).filterMap DocItem.segmentLineIndex).length)) = .ok ([[0], [1]], 5) := by decide +kernel
  obtain ⟨⟨flat', maus⟩, h1, h2⟩ := ok_of_map h
  injection h2 with h2 h3
  exact ⟨flat', maus, h1, h2, h3⟩

/-- a run with an output path that succeeds and is followed by a successful check -/
example : (cliCommand exCliEnv (exOptions none (some exOut)) ⟨exFs exFlatSchema, []⟩).1 = .ok () ∧
    (cliCommand exCliEnv (exOptions (some exOut) none) (cliCommand exCliEnv (exOptions none (some exOut)) ⟨exFs exFlatSchema, []⟩).2).1
      = .ok () := by
  obtain ⟨flat', maus, hd, _⟩ := ex_deep
  have h := ex_output exFlatSchema_constructed hd []
  refine ⟨h, C59_check_after_output_partial exCliEnv (exOptions none (some exOut)) ⟨exFs exFlatSchema, []⟩ _ exOut rfl rfl h ?_ rfl rfl ?_⟩
  · rintro (h | h | h) <;> revert h <;> decide
  · intro t flat ht hl
    obtain ⟨b, hb, hdec⟩ := ht
    have hb' : b = encodeUtf8 (jsonDumps exDefaultStyle exFlatSchema.dump) := (Option.some.inj hb.1).symm
    rw [hb', decodeUtf8_jsonDumps] at hdec
    cases hdec
    rw [C66_flat_text_round_trip _ _ exFlatSchema_constructed] at hl
    cases hl
    decide +kernel

/-- neither of the two paths, or both -/
example : (cliCommand exCliEnv (exOptions none none) ⟨exFs exFlatSchema, []⟩).1 ≠ .ok () ∧
    (cliCommand exCliEnv (exOptions (some exOut) (some exOut)) ⟨exFs exFlatSchema, []⟩).1 ≠ .ok () :=
  ⟨(C58_ambiguous _ _ _ rfl).1, (C58_ambiguous _ _ _ rfl).1⟩

/-- the example AHB without section names -/
def exNoSections : FlatAhb := { exFlatSchema with lines := exFlatSchema.lines.map fun l => { l with sectionName := none } }

theorem exNoSections_constructed : exNoSections.Constructed := by
  refine ⟨by decide +kernel, by decide +kernel, ?_⟩
  have h : ∀ l ∈ exNoSections.lines, AhbLine.new l = .ok l ∧ l.guid = some 0x6fd1a3b2c4d5e6f708192a3b4c5d6e7f := by
    decide +kernel
  intro l hl
  obtain ⟨h1, h2⟩ := h l hl
  refine ⟨h1, fun g hg => ?_⟩
  rw [h2] at hg
  cases hg
  decide

/-- **C59 is false as stated**: without section names the tool succeeds in writing a file which it does not accept as check path:
it fails with a `ValidationError`. -/
theorem C59_fails_without_section_name : ∃ env o w p, o.checkPath = none ∧ o.outputPath = some p ∧ ¬ o.IsInput p ∧
    (cliCommand env o w).1 = .ok () ∧ (cliCommand env (o.thenCheck p) (cliCommand env o w).2).1 = .error .validationError := by
  have h : (toDeepAhb (migLookup exMig) exPosStr exNoSections exSgh).map (fun r => (r.2.lines.head?.bind fun g =>
      g.ownSegments.head?).map Segment.sectionName) = .ok (some none) := by decide +kernel
  obtain ⟨⟨flat', maus⟩, hd, hs⟩ := ok_of_map h
  have hrun := ex_output exNoSections_constructed hd []
  have hp : ¬ (exOptions none (some exOut)).IsInput exOut := by rintro (h | h | h) <;> revert h <;> decide
  refine ⟨exCliEnv, exOptions none (some exOut), ⟨exFs exNoSections, []⟩, exOut, rfl, rfl, hp, hrun, ?_⟩
  obtain ⟨maus', hg, _, h2⟩ := C59_check_after_output_exact exCliEnv (exOptions none (some exOut)) ⟨exFs exNoSections, []⟩ _ exOut
    rfl rfl hrun hp rfl rfl
  rw [generates_unique hg (ex_generates exNoSections_constructed hd _ _)] at h2
  refine h2 ?_
  dsimp only at hs
  cases hl : maus.lines with
  | nil => rw [hl] at hs; cases hs
  | cons g gs =>
    rw [hl] at hs
    simp only [List.head?_cons, Option.bind_some] at hs
    cases ho : g.ownSegments with
    | nil => rw [ho] at hs; cases hs
    | cons s ss =>
      rw [ho] at hs
      simp only [List.head?_cons, Option.map_some, Option.some.injEq] at hs
      exact ⟨s, ⟨g, ⟨[0], by simp [groupAt?, SegmentGroup.at?]⟩, by rw [ho]; simp⟩, hs⟩

end Verif
