import Verif.Spec.Cli
import Verif.Proofs.Files
/-! lemmas about the command line tool -/

namespace Verif
open FileProg

theorem OnlyReads.readText (env : FileEnv) (p : FsPath) : OnlyReads (· = p) (readText env p) :=
  (OnlyReads.readBytes env p).seq fun _ => .lift _

theorem readText_ok {env : FileEnv} {p : FsPath} {w : FileWorld} {t : PyStr} :
    (readText env p w).1 = .ok t ↔ TextAt env w.fs p t := by
  unfold readText
  rw [seq_ok (OnlyReads.readBytes env p) fun _ => ⟨fun _ => True, .lift _⟩]
  simp only [readBytes_ok, lift_ok]
  exact Iff.rfl

theorem OnlyReads.readMig (env : CliEnv) (p : FsPath) : OnlyReads (· = p) (readMig env p) :=
  (OnlyReads.readBytes env.files p).seq fun _ => (OnlyReads.lift _).seq fun _ => (OnlyReads.readBytes env.files p).seq fun _ =>
    (OnlyReads.lift _).seq fun _ => .pure _

theorem readMig_ok {env : CliEnv} {p : FsPath} {w : FileWorld} {root : Xml} :
    (readMig env p w).1 = .ok root ↔ ∃ b, ReadableAt env.files w.fs p b ∧ env.parseXml b = .ok root := by
  unfold readMig
  have r := OnlyReads.readBytes env.files p
  rw [seq_ok r fun _ => ⟨_, (OnlyReads.lift _).seq fun _ => r.seq fun _ => (OnlyReads.lift _).seq fun _ => .pure _⟩]
  constructor
  · rintro ⟨b, h1, h2⟩
    rw [seq_ok (P := fun _ => True) (OnlyReads.lift _) fun _ => ⟨_, r.seq fun _ => (OnlyReads.lift _).seq fun _ => .pure _⟩] at h2
    obtain ⟨x, h2, h3⟩ := h2
    rw [seq_ok r fun _ => ⟨_, (OnlyReads.lift (P := fun _ => True) _).seq fun _ => .pure _⟩] at h3
    obtain ⟨_, _, h3⟩ := h3
    rw [seq_ok (P := fun _ => True) (OnlyReads.lift _) fun _ => ⟨fun _ => True, .pure _⟩] at h3
    obtain ⟨_, _, h3⟩ := h3
    rw [pure_ok] at h3
    subst h3
    exact ⟨b, readBytes_ok.1 h1, h2⟩
  · rintro ⟨b, h1, h2⟩
    refine ⟨b, readBytes_ok.2 h1, ?_⟩
    rw [seq_ok (P := fun _ => True) (OnlyReads.lift _) fun _ => ⟨_, r.seq fun _ => (OnlyReads.lift _).seq fun _ => .pure _⟩]
    refine ⟨root, h2, ?_⟩
    rw [seq_ok r fun _ => ⟨_, (OnlyReads.lift (P := fun _ => True) _).seq fun _ => .pure _⟩]
    refine ⟨b, readBytes_ok.2 h1, ?_⟩
    rw [seq_ok (P := fun _ => True) (OnlyReads.lift _) fun _ => ⟨fun _ => True, .pure _⟩]
    exact ⟨root, h2, rfl⟩

/-- the input files -/
def CliOptions.IsInput (o : CliOptions) (p : FsPath) : Prop := p = o.flatAhbPath ∨ p = o.sghPath ∨ p = o.templatePath

theorem OnlyReads.generate (env : CliEnv) (o : CliOptions) : OnlyReads o.IsInput (generate env o) :=
  ((OnlyReads.readText _ _).mono fun _ h => .inl h).seq fun _ => (OnlyReads.lift _).seq fun _ =>
    ((OnlyReads.readText _ _).mono fun _ h => .inr (.inl h)).seq fun _ => (OnlyReads.lift _).seq fun _ =>
    ((OnlyReads.readMig _ _).mono fun _ h => .inr (.inr h)).seq fun _ => (OnlyReads.lift _).seq fun _ => .pure _

theorem generate_ok {env : CliEnv} {o : CliOptions} {w : FileWorld} {maus : DeepAhb} :
    (generate env o w).1 = .ok maus ↔ Generates env w.fs o maus := by
  unfold generate Generates
  have l : ∀ {α β : Type} {r : PyRes α} {f : α → FileProg β} (hf : ∀ a, ∃ Q, OnlyReads Q (f a)) {b : β},
      ((FileProg.lift r >>= f) w).1 = .ok b ↔ ∃ a, r = .ok a ∧ (f a w).1 = .ok b :=
    fun hf => seq_ok (P := fun _ => True) (OnlyReads.lift _) hf
  have r6 : ∀ a : FlatAhb × DeepAhb, ∃ Q, OnlyReads Q (match a with | (_, maus) => (Pure.pure maus : FileProg DeepAhb)) :=
    fun a => ⟨fun _ => True, OnlyReads.pure _⟩
  have r5 : ∀ (flat : FlatAhb) (sgh : Sgh) (root : Xml), OnlyReads (fun _ => True) (do
      let (_, maus) ← FileProg.lift (toDeepAhb (migLookup root) env.posStr flat sgh)
      Pure.pure maus : FileProg DeepAhb) := fun _ _ _ => (OnlyReads.lift _).seq fun _ => .pure _
  have r4 : ∀ (flat : FlatAhb) (sgh : Sgh), OnlyReads (fun _ => True) (do
      let root ← readMig env o.templatePath
      let (_, maus) ← FileProg.lift (toDeepAhb (migLookup root) env.posStr flat sgh)
      Pure.pure maus : FileProg DeepAhb) := fun _ _ => ((OnlyReads.readMig _ _).mono fun _ _ => trivial).seq fun _ => r5 _ _ _
  have r3 : ∀ (flat : FlatAhb) (t : PyStr), OnlyReads (fun _ => True) (do
      let sgh ← FileProg.lift ((jsonLoads t).bind Sgh.load)
      let root ← readMig env o.templatePath
      let (_, maus) ← FileProg.lift (toDeepAhb (migLookup root) env.posStr flat sgh)
      Pure.pure maus : FileProg DeepAhb) := fun _ _ => (OnlyReads.lift _).seq fun _ => r4 _ _
  have r2 : ∀ (flat : FlatAhb), OnlyReads (fun _ => True) (do
      let t ← readText env.files o.sghPath
      let sgh ← FileProg.lift ((jsonLoads t).bind Sgh.load)
      let root ← readMig env o.templatePath
      let (_, maus) ← FileProg.lift (toDeepAhb (migLookup root) env.posStr flat sgh)
      Pure.pure maus : FileProg DeepAhb) := fun _ => ((OnlyReads.readText _ _).mono fun _ _ => trivial).seq fun _ => r3 _ _
  rw [seq_ok (OnlyReads.readText _ _) fun _ => ⟨_, (OnlyReads.lift _).seq fun _ => r2 _⟩]
  simp only [readText_ok]
  constructor
  · rintro ⟨t, ht, h⟩
    obtain ⟨flat, hflat, h⟩ := (l fun _ => ⟨_, r2 _⟩).1 h
    obtain ⟨t', ht', h⟩ := (seq_ok (OnlyReads.readText _ _) fun _ => ⟨_, r3 _ _⟩).1 h
    obtain ⟨sgh, hsgh, h⟩ := (l fun _ => ⟨_, r4 _ _⟩).1 h
    obtain ⟨root, hroot, h⟩ := (seq_ok (OnlyReads.readMig _ _) fun _ => ⟨_, r5 _ _ _⟩).1 h
    obtain ⟨⟨flat', m⟩, hd, h⟩ := (l r6).1 h
    rw [pure_ok] at h
    subst h
    obtain ⟨b, hb, hx⟩ := readMig_ok.1 hroot
    exact ⟨t, flat, t', sgh, b, root, flat', ht, hflat, readText_ok.1 ht', hsgh, hb, hx, hd⟩
  · rintro ⟨t, flat, t', sgh, b, root, flat', ht, hflat, ht', hsgh, hb, hx, hd⟩
    refine ⟨t, ht, (l fun _ => ⟨_, r2 _⟩).2 ⟨flat, hflat, (seq_ok (OnlyReads.readText _ _) fun _ => ⟨_, r3 _ _⟩).2
      ⟨t', readText_ok.2 ht', (l fun _ => ⟨_, r4 _ _⟩).2 ⟨sgh, hsgh, (seq_ok (OnlyReads.readMig _ _) fun _ => ⟨_, r5 _ _ _⟩).2
      ⟨root, readMig_ok.2 ⟨b, hb, hx⟩, (l r6).2 ⟨(flat', maus), hd, rfl⟩⟩⟩⟩⟩⟩

theorem generates_unique {env : CliEnv} {fs : FsNode} {o : CliOptions} {a b : DeepAhb} (ha : Generates env fs o a)
    (hb : Generates env fs o b) : a = b := by
  have h1 := (generate_ok (w := ⟨fs, []⟩)).2 ha
  have h2 := (generate_ok (w := ⟨fs, []⟩)).2 hb
  rw [h1] at h2
  injection h2

/-! ## click's checks -/

theorem clickChecks_eq (env : FileEnv) (o : CliOptions) (w : FileWorld) :
    (PathsOk env w.fs o → clickChecks env o w = (.ok (), w)) ∧ (¬ PathsOk env w.fs o → clickChecks env o w = (.error .other, w)) := by
  have he : ∀ p, clickExistingPath env p w = (.ok (), w) ∧ w.fs.exists p = true ∧ env.readDenied p = false ∨
      clickExistingPath env p w = (.error .other, w) ∧ ¬ (w.fs.exists p = true ∧ env.readDenied p = false) := by
    intro p
    unfold clickExistingPath
    cases w.fs.exists p <;> cases env.readDenied p <;> simp
  unfold clickChecks PathsOk
  rcases he o.flatAhbPath with ⟨h1, h1'⟩ | ⟨h1, h1'⟩
  swap
  · rw [seq_of_error h1]
    exact ⟨fun h => absurd (h.1 _ (.inl rfl)) h1', fun _ => rfl⟩
  rw [seq_of_ok h1]
  rcases he o.sghPath with ⟨h2, h2'⟩ | ⟨h2, h2'⟩
  swap
  · rw [seq_of_error h2]
    exact ⟨fun h => absurd (h.1 _ (.inr (.inl rfl))) h2', fun _ => rfl⟩
  rw [seq_of_ok h2]
  rcases he o.templatePath with ⟨h3, h3'⟩ | ⟨h3, h3'⟩
  swap
  · rw [seq_of_error h3]
    exact ⟨fun h => absurd (h.1 _ (.inr (.inr (.inl rfl)))) h3', fun _ => rfl⟩
  rw [seq_of_ok h3]
  have hc : forOption o.checkPath (clickExistingPath env) w = (.ok (), w) ∧
        (∀ p, o.checkPath = some p → w.fs.exists p = true ∧ env.readDenied p = false) ∨
      forOption o.checkPath (clickExistingPath env) w = (.error .other, w) ∧
        ¬ ∀ p, o.checkPath = some p → w.fs.exists p = true ∧ env.readDenied p = false := by
    cases o.checkPath with
    | none => exact .inl ⟨rfl, fun p h => by cases h⟩
    | some p =>
      rcases he p with ⟨h, h'⟩ | ⟨h, h'⟩
      · exact .inl ⟨h, fun q hq => by cases hq; exact h'⟩
      · exact .inr ⟨h, fun hn => h' (hn p rfl)⟩
  rcases hc with ⟨h4, h4'⟩ | ⟨h4, h4'⟩
  swap
  · rw [seq_of_error h4]
    exact ⟨fun h => absurd (fun p hp => h.1 p (.inr (.inr (.inr hp)))) h4', fun _ => rfl⟩
  rw [seq_of_ok h4]
  have hall : ∀ p, p = o.flatAhbPath ∨ p = o.sghPath ∨ p = o.templatePath ∨ o.checkPath = some p →
      w.fs.exists p = true ∧ env.readDenied p = false := by
    rintro p (rfl | rfl | rfl | h)
    · exact h1'
    · exact h2'
    · exact h3'
    · exact h4' p h
  cases ho : o.outputPath with
  | none => exact ⟨fun _ => rfl, fun h => absurd ⟨hall, fun p h => by cases h⟩ h⟩
  | some p =>
    have hx : w.fs.isDir p = true → w.fs.exists p = true := by
      rw [exists_eq]; intro h; rw [h]; rfl
    unfold forOption clickOutputPath
    dsimp only
    cases h1 : w.fs.exists p <;> cases h2 : w.fs.isDir p <;> cases h3 : env.readDenied p
    all_goals simp only [h1, h2, Bool.false_eq_true, imp_false, not_true_eq_false] at hx
    all_goals first
      | exact ⟨fun _ => rfl, fun h => absurd ⟨hall, fun q hq => by cases hq; simp [h1, h2, h3]⟩ h⟩
      | (refine ⟨fun h => ?_, fun _ => rfl⟩
         have := h.2 p rfl
         simp [h1, h2, h3] at this)

/-! ## what the two modes do -/

theorem cliCommand_run (env : CliEnv) (o : CliOptions) (w : FileWorld) :
    (PathsOk env.files w.fs o → cliCommand env o w = cliMain env o w) ∧
    (¬ PathsOk env.files w.fs o → cliCommand env o w = (.error .other, w)) := by
  obtain ⟨h1, h2⟩ := clickChecks_eq env.files o w
  unfold cliCommand
  exact ⟨fun h => seq_of_ok (h1 h), fun h => seq_of_error (h2 h)⟩

/-- the events and the state after generating -/
theorem generate_run (env : CliEnv) (o : CliOptions) (w : FileWorld) :
    ∃ r l, generate env o w = (r, { fs := w.fs, log := w.log ++ l }) ∧ (∀ maus, r = .ok maus ↔ Generates env w.fs o maus) ∧
      ∀ e ∈ l, ∃ p, o.IsInput p ∧ e = .opened p := by
  obtain ⟨l, h1, h2⟩ := (OnlyReads.generate env o).log w
  have h3 := (OnlyReads.generate env o).fs w
  refine ⟨(generate env o w).1, l, ?_, fun maus => generate_ok, h2⟩
  generalize generate env o w = x at *
  obtain ⟨r, ⟨fs, log⟩⟩ := x
  simp only at h1 h3
  rw [h1, h3]

theorem cliMain_ambiguous (env : CliEnv) (o : CliOptions) (w : FileWorld) (h : o.checkPath.isSome = o.outputPath.isSome) :
    cliMain env o w = (.error .abort, { w with log := w.log ++ [.said false] }) := by
  have hc : ((o.checkPath.isNone && o.outputPath.isNone) || (o.checkPath.isSome && o.outputPath.isSome)) = true := by
    cases h1 : o.checkPath <;> cases h2 : o.outputPath <;> simp [h1, h2] at h ⊢
  unfold cliMain
  rw [if_pos hc]
  rfl

theorem cliMain_output (env : CliEnv) (o : CliOptions) (w : FileWorld) (p : FsPath) (hc : o.checkPath = none)
    (ho : o.outputPath = some p) : cliMain env o w = match generate env o w with
      | (.ok maus, w') => writeMaus env.files maus p w'
      | (.error e, w') => (.error e, w') := by
  unfold cliMain
  rw [hc, ho]
  simp only [Option.isNone_none, Option.isNone_some, Option.isSome_none, Option.isSome_some, Bool.and_false, Bool.false_and,
    Bool.or_false, Bool.false_eq_true, if_false, forOption]
  rcases h : generate env o w with ⟨_ | a, w'⟩
  · rw [seq_of_error h]
  · rw [seq_of_ok h]
    dsimp only
    rcases h' : writeMaus env.files a p w' with ⟨_ | a, w'⟩
    · rw [seq_of_error h']
    · rw [seq_of_ok h']; rfl

theorem cliMain_check (env : CliEnv) (o : CliOptions) (w : FileWorld) (p : FsPath) (hc : o.checkPath = some p)
    (ho : o.outputPath = none) : cliMain env o w = match generate env o w with
      | (.ok maus, w') => checkMaus env.files maus p w'
      | (.error e, w') => (.error e, w') := by
  unfold cliMain
  rw [hc, ho]
  simp only [Option.isNone_none, Option.isNone_some, Option.isSome_none, Option.isSome_some, Bool.and_false, Bool.false_and,
    Bool.or_false, Bool.false_eq_true, if_false, forOption]
  rcases h : generate env o w with ⟨_ | a, w'⟩
  · rw [seq_of_error h]
  · rw [seq_of_ok h]
    exact seq_of_ok rfl

theorem checkMaus_run (env : FileEnv) (maus : DeepAhb) (p : FsPath) (w : FileWorld) :
    ∃ r l, checkMaus env maus p w = (r, { fs := w.fs, log := w.log ++ l }) ∧
      (r = .ok () ↔ ∃ expected, Stored env w.fs p expected ∧ expected.resetAhbLineIndex = maus.resetAhbLineIndex) ∧
      (∀ expected, Stored env w.fs p expected → expected.resetAhbLineIndex ≠ maus.resetAhbLineIndex → r = .error .abort) ∧
      ∀ e ∈ l, e = .opened p ∨ ∃ good, e = .said good := by
  have hg : OnlyReads (· = p) (readText env p >>= fun text => FileProg.lift ((jsonLoads text).bind DeepAhb.load)) :=
    (OnlyReads.readText env p).seq fun _ => .lift _
  have hs : ∀ expected, ((readText env p >>= fun text => FileProg.lift ((jsonLoads text).bind DeepAhb.load)) w).1 = .ok expected ↔
      Stored env w.fs p expected := by
    intro expected
    rw [seq_ok (OnlyReads.readText env p) fun _ => ⟨fun _ => True, .lift _⟩]
    simp only [readText_ok, lift_ok]
    exact Iff.rfl
  have hb : checkMaus env maus p w =
      match (readText env p >>= fun text => FileProg.lift ((jsonLoads text).bind DeepAhb.load)) w with
      | (.ok expected, w') =>
        if expected.resetAhbLineIndex = maus.resetAhbLineIndex then (.ok (), { w' with log := w'.log ++ [.said true] })
        else (.error .abort, { w' with log := w'.log ++ [.said false] })
      | (.error e, w') => (.error e, w') := by
    unfold checkMaus
    rcases h : readText env p w with ⟨_ | t, w'⟩
    · rw [seq_of_error h, seq_of_error h]
    · rw [seq_of_ok h, seq_of_ok h]
      rcases h' : (jsonLoads t).bind DeepAhb.load with _ | expected
      · rw [seq_of_error (prog := FileProg.lift _) (w := w') rfl]
        rfl
      · rw [seq_of_ok (prog := FileProg.lift _) (w := w') rfl]
        show _ = if expected.resetAhbLineIndex = maus.resetAhbLineIndex then _ else _
        by_cases he : expected.resetAhbLineIndex = maus.resetAhbLineIndex
        · rw [if_pos he, if_pos he]; rfl
        · rw [if_neg he, if_neg he]; rfl
  obtain ⟨l, hl, hm⟩ := hg.log w
  have hfs := hg.fs w
  rw [hb]
  generalize (readText env p >>= fun text => FileProg.lift ((jsonLoads text).bind DeepAhb.load)) w = x at *
  obtain ⟨r, ⟨fs, log⟩⟩ := x
  simp only at hl hfs hs
  subst hfs hl
  have hm' : ∀ e ∈ l, e = .opened p ∨ ∃ good, e = .said good := fun e he => by
    obtain ⟨q, rfl, h⟩ := hm e he; exact .inl h
  cases r with
  | error e =>
    refine ⟨.error e, l, rfl, ?_, fun expected h => ?_, hm'⟩
    · simp only [reduceCtorEq, false_iff, not_exists, not_and]
      intro expected h
      have := (hs expected).2 h
      cases this
    · have := (hs expected).2 h
      cases this
  | ok expected =>
    have hu : ∀ e', Stored env w.fs p e' → e' = expected := fun e' h => by
      have := (hs e').2 h; injection this with this; exact this.symm
    dsimp only
    by_cases he : expected.resetAhbLineIndex = maus.resetAhbLineIndex
    · rw [if_pos he]
      refine ⟨.ok (), l ++ [.said true], by rw [List.append_assoc], ⟨fun _ => ⟨expected, (hs _).1 rfl, he⟩, fun _ => rfl⟩,
        fun e' h1 h2 => absurd he (hu e' h1 ▸ h2), ?_⟩
      intro e h
      rcases List.mem_append.1 h with h | h
      · exact hm' e h
      · exact .inr ⟨true, List.mem_singleton.1 h⟩
    · rw [if_neg he]
      refine ⟨.error .abort, l ++ [.said false], by rw [List.append_assoc], ?_, fun e' h1 h2 => rfl, ?_⟩
      · simp only [reduceCtorEq, false_iff, not_exists, not_and]
        exact fun e' h => hu e' h ▸ he
      intro e h
      rcases List.mem_append.1 h with h | h
      · exact hm' e h
      · exact .inr ⟨false, List.mem_singleton.1 h⟩

end Verif
