import Verif.Proofs.CliTask
import Verif.Props.CliContent
import Verif.Props.CliCrash
/-!
# C99: runs of the command line tool that take place at the same time

`runs` are the environments and options of the runs, `fs` the file system before the first of them starts. The runs are processes
that make one operation on the file system at a time, in any order (`Spec/Parallel.lean`).
-/

namespace Verif

/-- **C99** (alone): if a run writes no file that is given to another run, then every run that has ended, in whatever order the
operations have taken place and whether the other runs have ended, still go on or have been killed, has ended as it would have ended
alone, and under all its paths there is what would be there if it had been alone. -/
theorem C99_same_as_alone (runs : List (CliEnv × CliOptions)) (fs fs' : FsNode) (ts : List (FileTask Unit)) (hsep : SeparateOutputs runs)
    (h : ParallelRun (fs, runs.map fun r => cliTask r.1 r.2) (fs', ts)) (i : Nat) (env : CliEnv) (o : CliOptions)
    (hi : runs[i]? = some (env, o)) (result : PyRes Unit) (hd : ts[i]? = some (.done result)) (log : List FileEvent) :
    result = (cliCommand env o ⟨fs, log⟩).1 ∧
    ∀ p ∈ o.paths, fs'.contentAt p = (cliCommand env o ⟨fs, log⟩).2.fs.contentAt p ∧
      fs'.isDir p = (cliCommand env o ⟨fs, log⟩).2.fs.isDir p := by
  have hI := (cli_parallel hsep h).2.1 i _ _ hi hd
  have hr := hI.result
  have ha := hI.agree
  have himp := implements_cli env o ⟨fs, log⟩
  simp only at himp
  simp only [cliJob, himp] at hr ha
  refine ⟨hr, fun p hp => ?_⟩
  have hl := ha p (uses_of_mem hp)
  simp only [FileTask.runFs] at hl
  rw [contentAt_look, contentAt_look, isDir_look, isDir_look, hl]
  exact ⟨rfl, rfl⟩

/-- **C99** (at any time): the output file of a run contains what it contained before the runs, or a first part of what the run alone
would write. -/
theorem C99_output (runs : List (CliEnv × CliOptions)) (fs fs' : FsNode) (ts : List (FileTask Unit)) (hsep : SeparateOutputs runs)
    (h : ParallelRun (fs, runs.map fun r => cliTask r.1 r.2) (fs', ts)) (env : CliEnv) (o : CliOptions) (hi : (env, o) ∈ runs)
    (p : FsPath) (hp : o.outputPath = some p) (log : List FileEvent) :
    fs'.contentAt p = fs.contentAt p ∨
    ∃ part content, fs'.contentAt p = some part ∧ (cliCommand env o ⟨fs, log⟩).2.fs.contentAt p = some content ∧ part <+: content := by
  obtain ⟨hlen, hinv, _⟩ := cli_parallel hsep h
  obtain ⟨i, hi'⟩ := List.mem_iff_getElem?.mp hi
  have hlt : i < ts.length := by
    have := (List.getElem?_eq_some_iff.mp hi').1
    simp only at hlen
    omega
  have hI := hinv i _ ts[i] hi' (List.getElem?_eq_getElem hlt)
  rcases (hI.phase p hp).content with hc | ⟨a, b, h1, h2, h3⟩
  · exact .inl hc
  · refine .inr ⟨a, b, h1, ?_, h3⟩
    have ha := hI.agree p (uses_of_mem (output_mem hp))
    have himp := implements_cli env o ⟨fs, log⟩
    simp only at himp
    simp only [cliJob, himp] at ha
    rw [contentAt_look, ← ha, ← contentAt_look]
    exact h2

/-- **C99** (other files): at any time all directories and all files other than the outputs are as they were
before, also if runs share their files. -/
theorem C99_other_files (runs : List (CliEnv × CliOptions)) (fs fs' : FsNode) (ts : List (FileTask Unit))
    (h : ParallelRun (fs, runs.map fun r => cliTask r.1 r.2) (fs', ts)) (q : FsPath) :
    fs'.isDir q = fs.isDir q ∧ ((∀ r ∈ runs, r.2.outputPath ≠ some q) → fs'.contentAt q = fs.contentAt q) := by
  have key := (parallel_frame (C := fun _ => True) (W := fun p => ∃ r ∈ runs, r.2.outputPath = some p) h fun t ht => by
    obtain ⟨r, hr, rfl⟩ := List.mem_map.mp ht
    exact (touches_cli r.1 r.2).mono (fun _ _ => trivial) fun p hp => ⟨r, hr, hp⟩).2 q
  exact ⟨key.1, fun hq => key.2 fun ⟨r, hr, he⟩ => hq r hr he⟩

/-- **C99** (no deadlock): whatever has happened so far, all runs can come to their ends, also if runs share their files. -/
theorem C99_all_end (runs : List (CliEnv × CliOptions)) (fs fs' : FsNode) (ts : List (FileTask Unit))
    (_h : ParallelRun (fs, runs.map fun r => cliTask r.1 r.2) (fs', ts)) :
    ∃ fs'' ts', ParallelRun (fs', ts) (fs'', ts') ∧ ts'.length = ts.length ∧ ∀ t ∈ ts', ∃ result, t = .done result :=
  parallel_all_end ts fs'

/-- **C99** (end): the runs cannot go on for ever. -/
theorem C99_terminates (runs : List (CliEnv × CliOptions)) (fs : FsNode) (s : Nat → FsNode × List (FileTask Unit))
    (h0 : s 0 = (fs, runs.map fun r => cliTask r.1 r.2)) : ¬ ∀ n, ParallelStep (s n) (s (n + 1)) := by
  intro h
  have key : ∀ ts : List (FileTask Unit), ∀ n, (s n).2 = ts → False := by
    intro ts
    induction listNext_acc ts with
    | intro ts _ ih =>
      intro n hn
      refine ih (s (n + 1)).2 ?_ (n + 1) rfl
      rw [← hn]
      cases hs : s n with
      | mk a b =>
        cases hs' : s (n + 1) with
        | mk a' b' =>
          have hstep := h n
          rw [hs, hs'] at hstep
          cases hstep with
          | mk ht hst => exact ⟨_, _, _, ht, ⟨_, _, hst⟩, rfl⟩
  exact key _ 0 rfl

/-! ## examples -/

/-- the output of a second run -/
def exOut2 : FsPath := [py!"data", py!"maus2.json"]

/-- two runs that read the same files and write two files, and a run that reads them and checks a third file -/
def exRuns : List (CliEnv × CliOptions) :=
  [(exCliEnv, exOptions none (some exOut)), (exCliEnv, exOptions none (some exOut2)),
    (exCliEnv, exOptions (some [py!"data", py!"old.json"]) none)]

theorem exRuns_separate : SeparateOutputs exRuns := by
  have key : ∀ i < 3, ∀ j < 3, i ≠ j → (((exRuns[i]?).bind fun a => a.2.outputPath).toList.all fun q =>
      (((exRuns[j]?).map fun b => b.2.paths).getD []).all fun p => !q.isPrefixOf p) = true := by
    decide
  intro i j a b hij hi hj q hq p hp hqp
  have hi' := (List.getElem?_eq_some_iff.mp hi).1
  have hj' := (List.getElem?_eq_some_iff.mp hj).1
  have h := key i hi' j hj' hij
  rw [hi, hj] at h
  simp only [Option.bind_some, hq, Option.toList_some, List.all_cons, List.all_nil, Bool.and_true, Option.map_some, Option.getD_some,
    List.all_eq_true] at h
  have h' := h p hp
  rw [List.isPrefixOf_iff_prefix.mpr hqp] at h'
  cases h'

/-- the runs come to their ends, and the first run has written the MAUS -/
example : ∃ fs' ts, ParallelRun (exFs exFlatSchema, exRuns.map fun r => cliTask r.1 r.2) (fs', ts) ∧
    ts[0]? = some (.done (.ok ())) ∧
    ∃ maus, Generates exCliEnv (exFs exFlatSchema) (exOptions none (some exOut)) maus ∧ fs'.contentAt exOut = some (mausBytes maus) := by
  obtain ⟨flat', maus, hd, _⟩ := ex_deep
  obtain ⟨fs', ts, h, hlen, hdone⟩ := C99_all_end exRuns (exFs exFlatSchema) _ _ (.refl _)
  have h0 : 0 < ts.length := by rw [hlen]; decide
  obtain ⟨r, hr⟩ := hdone ts[0] (List.getElem_mem h0)
  have hd0 : ts[0]? = some (.done r) := by rw [List.getElem?_eq_getElem h0, hr]
  have hok := ex_output exFlatSchema_constructed hd []
  obtain ⟨h1, h2⟩ := C99_same_as_alone exRuns _ _ _ exRuns_separate h 0 _ _ rfl r hd0 []
  rw [hok] at h1
  subst h1
  obtain ⟨maus', hg, hc⟩ := (C58_output exCliEnv (exOptions none (some exOut)) ⟨exFs exFlatSchema, []⟩ exOut rfl rfl).2.1 hok
  exact ⟨fs', ts, h, hd0, maus', hg, by rw [(h2 exOut (by decide)).1, hc]; rfl⟩

/-- the path of the flat AHB -/
def exFlatPath : FsPath := [py!"data", py!"flat.json"]

theorem exFlat_content : (exFs exFlatSchema).contentAt exFlatPath = some (encodeUtf8 (jsonDumps exDefaultStyle exFlatSchema.dump)) := by
  generalize exFlatSchema = f
  rfl

theorem exFlat_pathsOk : PathsOk exFiles (exFs exFlatSchema) (exOptions none (some exFlatPath)) := by
  refine ⟨(ex_pathsOk exFlatSchema).1, fun q hq => ?_⟩
  cases hq
  generalize exFlatSchema = f
  exact ⟨rfl, fun _ => rfl⟩

/-- the run that writes to the path of its own flat AHB -/
theorem exFlat_output {flat' : FlatAhb} {maus : DeepAhb} (hd : toDeepAhb (migLookup exMig) exPosStr exFlatSchema exSgh = .ok (flat', maus)) :
    (cliCommand exCliEnv (exOptions none (some exFlatPath)) ⟨exFs exFlatSchema, []⟩).1 = .ok () ∧
    (cliCommand exCliEnv (exOptions none (some exFlatPath)) ⟨exFs exFlatSchema, []⟩).2.fs.contentAt exFlatPath = some (mausBytes maus) := by
  have h58 := C58_output exCliEnv (exOptions none (some exFlatPath)) ⟨exFs exFlatSchema, []⟩ exFlatPath rfl rfl
  have hA := h58.1.2 ⟨exFlat_pathsOk, maus, ex_generates exFlatSchema_constructed hd _ _,
    .inl (by rw [exFlat_content]; exact fun h => by cases h), rfl, fun n hn => by cases hn⟩
  obtain ⟨maus', hg, hc⟩ := h58.2.1 hA
  rw [generates_unique hg (ex_generates exFlatSchema_constructed hd _ _)] at hc
  exact ⟨hA, hc⟩

theorem exFlat_first : (encodeUtf8 (jsonDumps exDefaultStyle exFlatSchema.dump))[1]? = some 34 := by decide +kernel

theorem exMaus_first : (toDeepAhb (migLookup exMig) exPosStr exFlatSchema exSgh).map (fun r => (mausBytes r.2)[1]?) = .ok (some 10) := by
  decide +kernel

/-- the texts of the flat AHB and of the MAUS differ -/
theorem exFlat_changed : (cliCommand exCliEnv (exOptions none (some exFlatPath)) ⟨exFs exFlatSchema, []⟩).2.fs.contentAt exFlatPath ≠
    (exFs exFlatSchema).contentAt exFlatPath := by
  obtain ⟨⟨flat', maus⟩, hd, h10⟩ := ok_of_map exMaus_first
  rw [(exFlat_output hd).2, exFlat_content]
  intro h
  have h' := congrArg (fun o : Option Bytes => o.bind fun b => b[1]?) h
  simp only [Option.bind_some] at h' h10
  rw [exFlat_first, h10] at h'
  exact absurd h' (by decide)

/-- a run that changes its output comes to the point at which the output is empty -/
theorem cli_reaches {env : CliEnv} {o : CliOptions} {p : FsPath} {fs : FsNode} (ho : o.outputPath = some p)
    (h : (cliCommand env o ⟨fs, []⟩).2.fs.contentAt p ≠ fs.contentAt p) :
    ∃ content k fs1, TaskSteps (cliTask env o) fs (.write p [] content k) fs1 ∧ fs.store [] p = .ok fs1 := by
  rcases once_reaches (once_cli env o) (touches_cli _ _) fs with hsame | ⟨q, content, k, fs1, hsteps, hs, hq⟩
  · exfalso
    apply h
    rw [← (show _ = (cliCommand env o ⟨fs, []⟩).2.fs from congrArg Prod.snd (implements_cli env o ⟨fs, []⟩))]
    simp only [hsame]
  · have hq' : p = q := Option.some.inj (ho.symm.trans hq)
    subst hq'
    exact ⟨content, k, fs1, hsteps, hs⟩

/-- the flat AHB has been emptied: the run fails -/
theorem exFlat_emptied {fs1 : FsNode} (hc : fs1.contentAt exFlatPath = some []) :
    (cliCommand exCliEnv (exOptions none (some exOut)) ⟨fs1, []⟩).1 ≠ .ok () := by
  intro hres
  obtain ⟨_, maus1, ⟨t, flat, _, _, _, _, _, ⟨c, ⟨hc1, _⟩, hdec⟩, hl, _⟩, _⟩ :=
    (C58_output exCliEnv (exOptions none (some exOut)) ⟨fs1, []⟩ exOut rfl rfl).1.1 hres
  have hc3 : fs1.contentAt exFlatPath = some c := hc1
  rw [hc] at hc3
  cases hc3
  have h0 : decodeUtf8 [] = .ok [] := by decide +kernel
  rw [h0] at hdec
  cases hdec
  have he : (jsonLoads []).bind FlatAhb.load = .error .valueError := rfl
  rw [he] at hl
  cases hl

/-- **C99** needs separate outputs: a run that would succeed alone may fail if another run writes one of its input files. -/
theorem C99_shared_file : ∃ (runs : List (CliEnv × CliOptions)) (fs fs' : FsNode) (ts : List (FileTask Unit)) (i : Nat) (env : CliEnv)
    (o : CliOptions) (result : PyRes Unit), ParallelRun (fs, runs.map fun r => cliTask r.1 r.2) (fs', ts) ∧
    runs[i]? = some (env, o) ∧ ts[i]? = some (.done result) ∧ (cliCommand env o ⟨fs, []⟩).1 = .ok () ∧ result ≠ .ok () := by
  obtain ⟨flat', maus, hd, _⟩ := ex_deep
  have hok := ex_output exFlatSchema_constructed hd []
  obtain ⟨content, k, fs1, hsteps, hs⟩ := cli_reaches (o := exOptions none (some exFlatPath)) rfl exFlat_changed
  have hlast := (once_cli exCliEnv (exOptions none (some exOut))).toEnd fs1
  have himp := implements_cli exCliEnv (exOptions none (some exOut)) ⟨fs1, []⟩
  have hfail := exFlat_emptied (contentAt_store hs)
  generalize exFs exFlatSchema = fs at *
  refine ⟨[(exCliEnv, exOptions none (some exFlatPath)), (exCliEnv, exOptions none (some exOut))], fs, _, _, 1, exCliEnv,
    exOptions none (some exOut), _, (hsteps.parallel (ts := [cliTask exCliEnv (exOptions none (some exFlatPath)),
      cliTask exCliEnv (exOptions none (some exOut))]) (i := 0) (by simp)).trans (hlast.parallel (i := 1) (by simp)),
    by simp, by simp; rfl, hok, ?_⟩
  rw [show (FileTask.runFs (cliTask exCliEnv (exOptions none (some exOut))) fs1) = _ from himp]
  exact hfail

end Verif
