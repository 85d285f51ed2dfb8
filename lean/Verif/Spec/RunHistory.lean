import Verif.Spec.Cli
/-!
# Specification vocabulary for histories of runs of the command line tool

One file system, on which the tool is run again and again, with other options, other permissions and other free space each time; each run
may end, fail or be interrupted. Between the runs other programs may change files.
-/

namespace Verif

/-- one step of a history: a run of the tool with these options (`some`) or something that another program does (`none`), and the file
system before and after it -/
structure FsStep where
  run : Option (CliEnv × CliOptions)
  before : FsNode
  after : FsNode

/-- the step can take place: for a run of the tool, the file system behind is the one at its end or at an interruption at any moment;
other programs may do what they want -/
def FsStep.Possible (s : FsStep) : Prop :=
  ∀ env o, s.run = some (env, o) → Interrupted s.before (cliCommand env o ⟨s.before, []⟩).2.log s.after

/-- the step is a run of the tool that is not interrupted -/
def FsStep.Ends (s : FsStep) (env : CliEnv) (o : CliOptions) : Prop :=
  s.run = some (env, o) ∧ (cliCommand env o ⟨s.before, []⟩).2.fs = s.after

/-- the step is a run of the tool that succeeds -/
def FsStep.Succeeds (s : FsStep) (env : CliEnv) (o : CliOptions) : Prop := s.Ends env o ∧ (cliCommand env o ⟨s.before, []⟩).1 = .ok ()

/-- the step is a run of the tool that is not interrupted and raises an exception -/
def FsStep.Fails (s : FsStep) : Prop := ∃ env o e, s.Ends env o ∧ (cliCommand env o ⟨s.before, []⟩).1 = .error e

/-- the step is about this file: a run of the tool that is to write it, or another program that changes it -/
def FsStep.About (s : FsStep) (q : FsPath) : Prop :=
  (∃ env o, s.run = some (env, o) ∧ o.outputPath = some q ∧ o.checkPath = none) ∨
  (s.run = none ∧ s.after.contentAt q ≠ s.before.contentAt q)

/-- the steps take place one after another -/
inductive FsHistory : FsNode → List FsStep → FsNode → Prop
  | nil (fs : FsNode) : FsHistory fs [] fs
  | cons (s : FsStep) (steps : List FsStep) (fs : FsNode) : s.Possible → FsHistory s.after steps fs → FsHistory s.before (s :: steps) fs

/-- the bytes of the file with this MAUS -/
def mausFile (maus : DeepAhb) : Bytes := encodeUtf8 (jsonDumps { indent := some 2, ensureAscii := false, sortKeys := true } maus.dump)

end Verif
