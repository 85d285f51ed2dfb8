import Verif.Model.Cli
import Verif.Spec.Files
import Verif.Spec.DeepOps
/-!
# Specification vocabulary for the command line tool

What the tool computes, as a relation between the contents of the files, without any order of events.
-/

namespace Verif

/-- there is a readable file with this content -/
def ReadableAt (env : FileEnv) (fs : FsNode) (p : FsPath) (content : Bytes) : Prop :=
  fs.contentAt p = some content ∧ env.readDenied p = false

/-- there is a readable text file with this text -/
def TextAt (env : FileEnv) (fs : FsNode) (p : FsPath) (text : PyStr) : Prop :=
  ∃ content, ReadableAt env fs p content ∧ decodeUtf8 content = .ok text

/-- the MAUS that belongs to the input files: all of them are readable, the flat AHB and the hierarchy are valid, the template is
XML, and `to_deep_ahb` succeeds -/
def Generates (env : CliEnv) (fs : FsNode) (o : CliOptions) (maus : DeepAhb) : Prop :=
  ∃ flatText flat sghText sgh template root flat',
    TextAt env.files fs o.flatAhbPath flatText ∧ (jsonLoads flatText).bind FlatAhb.load = .ok flat ∧
    TextAt env.files fs o.sghPath sghText ∧ (jsonLoads sghText).bind Sgh.load = .ok sgh ∧
    ReadableAt env.files fs o.templatePath template ∧ env.parseXml template = .ok root ∧
    toDeepAhb (migLookup root) env.posStr flat sgh = .ok (flat', maus)

/-- a file can be written: there is a file already, or the directory exists and there is no directory with this name; it is
permitted, and the content fits on the device -/
def CanWrite (env : FileEnv) (fs : FsNode) (p : FsPath) (size : Nat) : Prop :=
  (fs.contentAt p ≠ none ∨ (∃ dir name, p = dir ++ [name] ∧ fs.isDir dir = true) ∧ fs.isDir p = false) ∧
  env.writeDenied p = false ∧ ∀ n, env.space = some n → size ≤ n

/-- all paths are acceptable for click: the files to be read exist and are readable, the output is no directory and not unreadable -/
def PathsOk (env : FileEnv) (fs : FsNode) (o : CliOptions) : Prop :=
  (∀ p, p = o.flatAhbPath ∨ p = o.sghPath ∨ p = o.templatePath ∨ o.checkPath = some p →
    fs.exists p = true ∧ env.readDenied p = false) ∧
  ∀ p, o.outputPath = some p → fs.isDir p = false ∧ (fs.exists p = true → env.readDenied p = false)

/-- there is a readable file with a valid MAUS -/
def Stored (env : FileEnv) (fs : FsNode) (p : FsPath) (expected : DeepAhb) : Prop :=
  ∃ t, TextAt env fs p t ∧ (jsonLoads t).bind DeepAhb.load = .ok expected

/-- two deep AHBs are equal except for the line indices -/
def EqualUpToIndex (a b : DeepAhb) : Prop := a.ahbMeta = b.ahbMeta ∧ SegmentGroup.SameButIndexList a.lines b.lines

end Verif
