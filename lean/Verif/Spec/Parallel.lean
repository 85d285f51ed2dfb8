import Verif.Spec.Files
import Verif.Model.CliTask
/-!
# Specification: runs of the command line tool that take place at the same time
-/

namespace Verif

/-- one of the programs makes one operation -/
inductive ParallelStep {α : Type} : FsNode × List (FileTask α) → FsNode × List (FileTask α) → Prop
  | mk {fs fs' : FsNode} {ts : List (FileTask α)} {i : Nat} {t t' : FileTask α} (ht : ts[i]? = some t) (h : TaskStep t fs t' fs') :
      ParallelStep (fs, ts) (fs', ts.set i t')

/-- what the programs and the file system are after some operations in any order. A program that makes no further operation may as
well have been killed. -/
inductive ParallelRun {α : Type} : FsNode × List (FileTask α) → FsNode × List (FileTask α) → Prop
  | refl (s : FsNode × List (FileTask α)) : ParallelRun s s
  | step {s s' s'' : FsNode × List (FileTask α)} (h : ParallelRun s s') (h' : ParallelStep s' s'') : ParallelRun s s''

/-- the paths that are given on the command line -/
def CliOptions.paths (o : CliOptions) : List FsPath :=
  [o.flatAhbPath, o.sghPath, o.templatePath] ++ o.checkPath.toList ++ o.outputPath.toList

/-- no run writes a file that is given to another run, or that would have to be a directory for another run -/
def SeparateOutputs (runs : List (CliEnv × CliOptions)) : Prop :=
  ∀ (i j : Nat) (a b : CliEnv × CliOptions), i ≠ j → runs[i]? = some a → runs[j]? = some b →
    ∀ q, a.2.outputPath = some q → ∀ p ∈ b.2.paths, ¬ q <+: p

end Verif
