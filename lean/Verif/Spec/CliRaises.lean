import Verif.Spec.Cli
/-!
# Specification: how a run of the command line tool fails (C110)

`PathsOk` (all paths are acceptable for click), `TextAt`, `ReadableAt`, `Generates`, `Stored` and `EqualUpToIndex` are in `Spec/Cli.lean`.
-/

namespace Verif

/-- exactly one of the two options `--output-path` and `--check-path` is given -/
def OneMode (o : CliOptions) : Prop := o.checkPath.isSome ≠ o.outputPath.isSome

/-- the text of an existing, readable path cannot be read: it is a directory (`IsADirectoryError`), or it is no UTF-8
(`UnicodeDecodeError`, a `ValueError`) -/
inductive TextFails (fs : FsNode) (p : FsPath) : Exc → Prop
  | directory (h : fs.isDir p = true) : TextFails fs p .other
  | encoding (content : Bytes) (h : fs.contentAt p = some content) (bad : ∀ text, decodeUtf8 content ≠ .ok text) :
      TextFails fs p .valueError

/-- the flat AHB in the file -/
def FlatGiven (env : CliEnv) (fs : FsNode) (o : CliOptions) (flat : FlatAhb) : Prop :=
  ∃ text, TextAt env.files fs o.flatAhbPath text ∧ (jsonLoads text).bind FlatAhb.load = .ok flat

/-- the segment group hierarchy in the file -/
def SghGiven (env : CliEnv) (fs : FsNode) (o : CliOptions) (sgh : Sgh) : Prop :=
  ∃ text, TextAt env.files fs o.sghPath text ∧ (jsonLoads text).bind Sgh.load = .ok sgh

/-- the MIG in the template -/
def MigGiven (env : CliEnv) (fs : FsNode) (o : CliOptions) (root : Xml) : Prop :=
  ∃ content, ReadableAt env.files fs o.templatePath content ∧ env.parseXml content = .ok root

/-- there is no MAUS for the input files: the flat AHB is looked at first, then the hierarchy, then the template, and then the
MAUS is made -/
inductive InputFails (env : CliEnv) (fs : FsNode) (o : CliOptions) : Exc → Prop
  | flatText (e : Exc) (h : TextFails fs o.flatAhbPath e) : InputFails env fs o e
  | flat (text : PyStr) (e : Exc) (ht : TextAt env.files fs o.flatAhbPath text) (h : (jsonLoads text).bind FlatAhb.load = .error e) :
      InputFails env fs o e
  | sghText (flat : FlatAhb) (e : Exc) (hf : FlatGiven env fs o flat) (h : TextFails fs o.sghPath e) : InputFails env fs o e
  | sgh (flat : FlatAhb) (text : PyStr) (e : Exc) (hf : FlatGiven env fs o flat) (ht : TextAt env.files fs o.sghPath text)
      (h : (jsonLoads text).bind Sgh.load = .error e) : InputFails env fs o e
  | templateIsDirectory (flat : FlatAhb) (sgh : Sgh) (hf : FlatGiven env fs o flat) (hs : SghGiven env fs o sgh)
      (h : fs.isDir o.templatePath = true) : InputFails env fs o .other
  | template (flat : FlatAhb) (sgh : Sgh) (content : Bytes) (e : Exc) (hf : FlatGiven env fs o flat) (hs : SghGiven env fs o sgh)
      (ht : fs.contentAt o.templatePath = some content) (h : env.parseXml content = .error e) : InputFails env fs o e
  | maus (flat : FlatAhb) (sgh : Sgh) (root : Xml) (e : Exc) (hf : FlatGiven env fs o flat) (hs : SghGiven env fs o sgh)
      (hm : MigGiven env fs o root) (h : toDeepAhb (migLookup root) env.posStr flat sgh = .error e) : InputFails env fs o e

/-- a file with `size` bytes cannot be written to a path that is no directory -/
inductive WriteFails (env : FileEnv) (fs : FsNode) (p : FsPath) (size : Nat) : Exc → Prop
  | denied (h : env.writeDenied p = true) : WriteFails env fs p size .other
  /-- the directory cannot be found (`FileNotFoundError`), or something on the way to it is a file (`NotADirectoryError`) -/
  | noDirectory (dir : FsPath) (name : PyStr) (e : Exc) (allowed : env.writeDenied p = false) (hp : p = dir ++ [name])
      (h : fs.resolve dir = .error e) : WriteFails env fs p size e
  /-- the directory is a file (`NotADirectoryError`) -/
  | directoryIsFile (dir : FsPath) (name : PyStr) (content : Bytes) (allowed : env.writeDenied p = false) (hp : p = dir ++ [name])
      (h : fs.contentAt dir = some content) : WriteFails env fs p size .other
  /-- the device is full -/
  | full (n : Nat) (allowed : env.writeDenied p = false)
      (place : fs.contentAt p ≠ none ∨ ∃ dir name, p = dir ++ [name] ∧ fs.isDir dir = true) (h : env.space = some n) (hn : n < size) :
      WriteFails env fs p size .other

/-- comparing the MAUS with the one in the file does not succeed -/
inductive CheckFails (env : FileEnv) (fs : FsNode) (p : FsPath) (maus : DeepAhb) : Exc → Prop
  | text (e : Exc) (h : TextFails fs p e) : CheckFails env fs p maus e
  | load (text : PyStr) (e : Exc) (ht : TextAt env fs p text) (h : (jsonLoads text).bind DeepAhb.load = .error e) :
      CheckFails env fs p maus e
  | different (expected : DeepAhb) (hs : Stored env fs p expected) (h : ¬ EqualUpToIndex expected maus) :
      CheckFails env fs p maus .abort

/-- the command fails -/
inductive CommandFails (env : CliEnv) (fs : FsNode) (o : CliOptions) : Exc → Prop
  /-- click's usage error -/
  | usage (h : ¬ PathsOk env.files fs o) : CommandFails env fs o .other
  | ambiguous (paths : PathsOk env.files fs o) (h : ¬ OneMode o) : CommandFails env fs o .abort
  | input (e : Exc) (paths : PathsOk env.files fs o) (mode : OneMode o) (h : InputFails env fs o e) : CommandFails env fs o e
  | output (p : FsPath) (maus : DeepAhb) (e : Exc) (paths : PathsOk env.files fs o) (noCheck : o.checkPath = none)
      (path : o.outputPath = some p) (hg : Generates env fs o maus)
      (h : WriteFails env.files fs p
        (encodeUtf8 (jsonDumps { indent := some 2, ensureAscii := false, sortKeys := true } maus.dump)).length e) :
      CommandFails env fs o e
  | check (p : FsPath) (maus : DeepAhb) (e : Exc) (paths : PathsOk env.files fs o) (path : o.checkPath = some p)
      (noOutput : o.outputPath = none) (hg : Generates env fs o maus) (h : CheckFails env.files fs p maus e) :
      CommandFails env fs o e

end Verif
