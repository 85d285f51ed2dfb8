import Verif.Proofs.FileTask
/-! lemmas about runs of the command line tool as sequences of operations -/

namespace Verif
open FsNode

/-! ## the sequence of operations does what the command does -/

theorem implements_say {α : Type} (good : Bool) (r : PyRes α) :
    Implements (.say good (.done r)) ((FileProg.say good) >>= fun _ => FileProg.lift r) := fun _ => rfl

theorem implements_clickExisting (env : FileEnv) (p : FsPath) : Implements (clickExistingTask env p) (clickExistingPath env p) := by
  intro w
  unfold clickExistingTask clickExistingPath
  simp only [FileTask.runFs]
  split <;> rfl

theorem implements_clickOutput (env : FileEnv) (p : FsPath) : Implements (clickOutputTask env p) (clickOutputPath env p) := by
  intro w
  unfold clickOutputTask clickOutputPath
  simp only [FileTask.runFs]
  split <;> rfl

theorem implements_forOption {α : Type} (o : Option α) {f : α → FileTask Unit} {g : α → FileProg Unit}
    (h : ∀ a, Implements (f a) (g a)) : Implements (forOptionTask o f) (forOption o g) := by
  cases o with
  | none => exact fun _ => rfl
  | some a => exact h a

theorem implements_click (env : FileEnv) (o : CliOptions) : Implements (clickTask env o) (clickChecks env o) :=
  (implements_clickExisting _ _).seq fun _ => (implements_clickExisting _ _).seq fun _ => (implements_clickExisting _ _).seq fun _ =>
    (implements_forOption _ fun _ => implements_clickExisting _ _).seq fun _ => implements_forOption _ fun _ => implements_clickOutput _ _

theorem implements_readText (env : FileEnv) (p : FsPath) : Implements (readTextTask env p) (readText env p) :=
  (Implements.readBytes _ _).seq fun _ => Implements.lift _

theorem implements_readMig (env : CliEnv) (p : FsPath) : Implements (readMigTask env p) (readMig env p) :=
  (Implements.readBytes _ _).seq fun _ => (Implements.lift _).seq fun _ => (Implements.readBytes _ _).seq fun _ =>
    (Implements.lift _).seq fun _ => Implements.pure _

theorem implements_generate (env : CliEnv) (o : CliOptions) : Implements (generateTask env o) (generate env o) :=
  (implements_readText _ _).seq fun _ => (Implements.lift _).seq fun _ => (implements_readText _ _).seq fun _ =>
    (Implements.lift _).seq fun _ => (implements_readMig _ _).seq fun _ => (Implements.lift _).seq fun _ => Implements.pure _

theorem implements_checkMaus (env : FileEnv) (maus : DeepAhb) (p : FsPath) :
    Implements (checkMausTask env maus p) (checkMaus env maus p) :=
  (implements_readText _ _).seq fun _ => (Implements.lift _).seq fun expected => by
    by_cases h : expected.resetAhbLineIndex = maus.resetAhbLineIndex
    · simp only [h, if_true]; exact fun _ => rfl
    · simp only [h, if_false]; exact fun _ => rfl

theorem implements_main (env : CliEnv) (o : CliOptions) : Implements (mainTask env o) (cliMain env o) := by
  unfold mainTask cliMain
  split
  · exact fun _ => rfl
  · refine (implements_generate env o).seq fun maus => ?_
    split
    · exact fun _ => rfl
    · exact (implements_forOption _ fun _ => Implements.writeBytes _ _ _).seq fun _ =>
        implements_forOption _ fun _ => implements_checkMaus _ _ _

theorem implements_cli (env : CliEnv) (o : CliOptions) : Implements (cliTask env o) (cliCommand env o) :=
  (implements_click _ _).seq fun _ => implements_main _ _

/-! ## the paths of a run -/

/-- the paths on the command line and the directories above -/
def CliOptions.uses (o : CliOptions) (q : FsPath) : Prop := ∃ p ∈ o.paths, q <+: p

/-- the output path -/
def CliOptions.writes (o : CliOptions) (q : FsPath) : Prop := o.outputPath = some q

theorem uses_closed (o : CliOptions) : PrefixClosed o.uses := by
  rintro p q ⟨r, hr, hp⟩ hq
  exact ⟨r, hr, hq.trans hp⟩

theorem uses_of_mem {o : CliOptions} {p : FsPath} (h : p ∈ o.paths) : o.uses p := ⟨p, h, List.prefix_refl p⟩

theorem flat_mem (o : CliOptions) : o.flatAhbPath ∈ o.paths := by simp [CliOptions.paths]
theorem sgh_mem (o : CliOptions) : o.sghPath ∈ o.paths := by simp [CliOptions.paths]
theorem template_mem (o : CliOptions) : o.templatePath ∈ o.paths := by simp [CliOptions.paths]
theorem check_mem {o : CliOptions} {p : FsPath} (h : o.checkPath = some p) : p ∈ o.paths := by simp [CliOptions.paths, h]
theorem output_mem {o : CliOptions} {p : FsPath} (h : o.outputPath = some p) : p ∈ o.paths := by simp [CliOptions.paths, h]

theorem touches_clickExisting {C W : FsPath → Prop} (env : FileEnv) {p : FsPath} (hp : C p) : Touches C W (clickExistingTask env p) :=
  .stat hp fun _ _ => .done _

theorem touches_clickOutput {C W : FsPath → Prop} (env : FileEnv) {p : FsPath} (hp : C p) : Touches C W (clickOutputTask env p) :=
  .stat hp fun _ _ => .done _

theorem touches_forOption {C W : FsPath → Prop} {α : Type} (o : Option α) {f : α → FileTask Unit} (h : ∀ a, o = some a → Touches C W (f a)) :
    Touches C W (forOptionTask o f) := by
  cases o with
  | none => exact .done _
  | some a => exact h a rfl

theorem touches_readText {C W : FsPath → Prop} (env : FileEnv) {p : FsPath} (hp : C p) : Touches C W (readTextTask env p) :=
  (Touches.readBytes env hp).seq fun _ => .done _

theorem touches_readMig {C W : FsPath → Prop} (env : CliEnv) {p : FsPath} (hp : C p) : Touches C W (readMigTask env p) :=
  (Touches.readBytes _ hp).seq fun _ => Touches.seq (.done _) fun _ => (Touches.readBytes _ hp).seq fun _ =>
    Touches.seq (.done _) fun _ => .done _

theorem touches_cli (env : CliEnv) (o : CliOptions) : Touches o.uses o.writes (cliTask env o) := by
  have hf := uses_of_mem (flat_mem o)
  have hs := uses_of_mem (sgh_mem o)
  have ht := uses_of_mem (template_mem o)
  have hc : ∀ p, o.checkPath = some p → o.uses p := fun p h => uses_of_mem (check_mem h)
  have ho : ∀ p, o.outputPath = some p → o.uses p := fun p h => uses_of_mem (output_mem h)
  refine Touches.seq ?_ fun _ => ?_
  · exact (touches_clickExisting _ hf).seq fun _ => (touches_clickExisting _ hs).seq fun _ => (touches_clickExisting _ ht).seq fun _ =>
      (touches_forOption _ fun p hp => touches_clickExisting _ (hc p hp)).seq fun _ =>
        touches_forOption _ fun p hp => touches_clickOutput _ (ho p hp)
  · unfold mainTask
    split
    · exact .say (.done _)
    · refine Touches.seq ?_ fun maus => ?_
      · exact (touches_readText _ hf).seq fun _ => Touches.seq (.done _) fun _ => (touches_readText _ hs).seq fun _ =>
          Touches.seq (.done _) fun _ => (touches_readMig _ ht).seq fun _ => Touches.seq (.done _) fun _ => .done _
      · split
        · exact .say (.done _)
        · refine (touches_forOption _ fun p hp => Touches.writeBytes _ _ (ho p hp) hp).seq fun _ => touches_forOption _ fun p hp => ?_
          refine (touches_readText _ (hc p hp)).seq fun _ => Touches.seq (.done _) fun expected => ?_
          split <;> exact .say (.done _)

theorem opens_forOption {α : Type} (o : Option α) {f : α → FileTask Unit} (h : ∀ a, OpensFirst none (f a)) :
    OpensFirst none (forOptionTask o f) := by
  cases o with
  | none => exact .done _
  | some a => exact h a

theorem opens_readText (env : FileEnv) (p : FsPath) : OpensFirst none (readTextTask env p) :=
  (OpensFirst.readBytes env p).seq fun _ => .done _

theorem opens_cli (env : CliEnv) (o : CliOptions) : OpensFirst none (cliTask env o) := by
  have hx : ∀ p, OpensFirst none (clickExistingTask env.files p) := fun p => .stat fun _ _ => .done _
  have hy : ∀ p, OpensFirst none (clickOutputTask env.files p) := fun p => .stat fun _ _ => .done _
  refine OpensFirst.seq ?_ fun _ => ?_
  · exact (hx _).seq fun _ => (hx _).seq fun _ => (hx _).seq fun _ => (opens_forOption _ hx).seq fun _ => opens_forOption _ hy
  · unfold mainTask
    split
    · exact .say (.done _)
    · refine OpensFirst.seq ?_ fun maus => ?_
      · exact (opens_readText _ _).seq fun _ => OpensFirst.seq (.done _) fun _ => (opens_readText _ _).seq fun _ =>
          OpensFirst.seq (.done _) fun _ =>
            ((OpensFirst.readBytes _ _).seq fun _ => OpensFirst.seq (.done _) fun _ => (OpensFirst.readBytes _ _).seq fun _ =>
              OpensFirst.seq (.done _) fun _ => .done _).seq fun _ => OpensFirst.seq (.done _) fun _ => .done _
      · split
        · exact .say (.done _)
        · refine (opens_forOption _ fun p => OpensFirst.writeBytes _ _ _).seq fun _ => opens_forOption _ fun p => ?_
          refine (opens_readText _ _).seq fun _ => OpensFirst.seq (.done _) fun expected => ?_
          split <;> exact .say (.done _)

theorem reads_forOption {α : Type} (o : Option α) {f : α → FileTask Unit} (h : ∀ a, ReadsOnly (f a)) : ReadsOnly (forOptionTask o f) := by
  cases o with
  | none => exact .done _
  | some a => exact h a

theorem reads_readBytes (env : FileEnv) (p : FsPath) : ReadsOnly (FileTask.readBytes env p) := .read fun _ => .done _

theorem reads_readText (env : FileEnv) (p : FsPath) : ReadsOnly (readTextTask env p) :=
  (reads_readBytes env p).seq fun _ => .done _

theorem once_cli (env : CliEnv) (o : CliOptions) : WritesOnce (cliTask env o) := by
  have hx : ∀ p, ReadsOnly (clickExistingTask env.files p) := fun p => .stat fun _ _ => .done _
  have hy : ∀ p, ReadsOnly (clickOutputTask env.files p) := fun p => .stat fun _ _ => .done _
  refine ReadsOnly.seqOnce ?_ fun _ => ?_
  · exact (hx _).seq fun _ => (hx _).seq fun _ => (hx _).seq fun _ => (reads_forOption _ hx).seq fun _ => reads_forOption _ hy
  · unfold mainTask
    split
    · exact .say (.done _)
    · refine ReadsOnly.seqOnce ?_ fun maus => ?_
      · exact (reads_readText _ _).seq fun _ => ReadsOnly.seq (.done _) fun _ => (reads_readText _ _).seq fun _ =>
          ReadsOnly.seq (.done _) fun _ =>
            ((reads_readBytes _ _).seq fun _ => ReadsOnly.seq (.done _) fun _ => (reads_readBytes _ _).seq fun _ =>
              ReadsOnly.seq (.done _) fun _ => .done _).seq fun _ => ReadsOnly.seq (.done _) fun _ => .done _
      · split
        · exact .say (.done _)
        · refine WritesOnce.seqReads ?_ fun _ => reads_forOption _ fun p => ?_
          · cases o.outputPath with
            | none => exact .done _
            | some p => exact WritesOnce.writeBytes _ _ _
          · refine (reads_readText _ _).seq fun _ => ReadsOnly.seq (.done _) fun expected => ?_
            split <;> exact .say (.done _)

/-- a run of the tool -/
def cliJob (r : CliEnv × CliOptions) : Job Unit := { uses := r.2.uses, writes := r.2.writes, task := cliTask r.1 r.2 }

theorem cli_parallel {runs : List (CliEnv × CliOptions)} {fs : FsNode} {s : FsNode × List (FileTask Unit)} (hsep : SeparateOutputs runs)
    (h : ParallelRun (fs, runs.map fun r => cliTask r.1 r.2) s) :
    s.2.length = runs.length ∧
    (∀ (i : Nat) (r : CliEnv × CliOptions) (t : FileTask Unit), runs[i]? = some r → s.2[i]? = some t → JobInv fs (cliJob r) s.1 t) ∧
    ∀ q, (∀ r ∈ runs, ∀ p, r.2.outputPath = some p → ¬ p <+: q) → s.1.look q = fs.look q := by
  have hr : ParallelRun (fs, (runs.map cliJob).map Job.task) s := by
    rw [List.map_map]
    exact h
  have key := parallel_inv (jobs := runs.map cliJob) (fun j hj => by
      obtain ⟨r, _, rfl⟩ := List.mem_map.mp hj; exact uses_closed _) (fun j hj => by
      obtain ⟨r, _, rfl⟩ := List.mem_map.mp hj; exact touches_cli _ _) (fun j hj => by
      obtain ⟨r, _, rfl⟩ := List.mem_map.mp hj; exact opens_cli _ _) (fun j hj => by
      obtain ⟨r, _, rfl⟩ := List.mem_map.mp hj; exact once_cli _ _) (fun j hj p q hp hq => by
      obtain ⟨r, _, rfl⟩ := List.mem_map.mp hj; exact Option.some.inj (hp.symm.trans hq)) (fun j hj p hp => by
      obtain ⟨r, _, rfl⟩ := List.mem_map.mp hj; exact uses_of_mem (output_mem hp)) (fun i k a b hik ha hb q p hq hp hqp => by
      rw [List.getElem?_map] at ha hb
      cases hia : runs[i]? with
      | none => rw [hia] at ha; cases ha
      | some ra =>
        cases hkb : runs[k]? with
        | none => rw [hkb] at hb; cases hb
        | some rb =>
          rw [hia] at ha
          rw [hkb] at hb
          cases ha
          cases hb
          obtain ⟨p', hp', hpp⟩ := hp
          exact hsep i k ra rb hik hia hkb q hq p' hp' (hqp.trans hpp)) hr
  refine ⟨by simpa using key.1, fun i r t hi ht => key.2.1 i (cliJob r) t (by rw [List.getElem?_map, hi]; rfl) ht, fun q hq => ?_⟩
  refine key.2.2 q fun j hj p hp => ?_
  obtain ⟨r, hr, rfl⟩ := List.mem_map.mp hj
  exact hq r hr p hp

end Verif
