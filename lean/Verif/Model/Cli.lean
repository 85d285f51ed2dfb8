import Verif.Py.Files
import Verif.Py.JsonText
import Verif.Model.Schema
import Verif.Model.Matching
import Verif.Model.MigXml
import Verif.Model.Deep
/-!
# Model of `maus.cli`, `maus.maus_provider` and `maus.reader.tree_to_sgh` (file handling)

Outside the model: the XML parser (`parseXml`), the parser for `.tree` files and the printed form of a location (`posStr`) are
parameters; click's parsing of the command line is modelled by its result, a record of options, and by its checks of the paths.
-/

namespace Verif
open FileProg

/-! ## cli -/

/-- the collaborators of the command line tool (serves cli.py:62-114) -/
structure CliEnv where
  files : FileEnv
  /-- lxml's `etree.parse(path).getroot()` as a function of the content of the file -/
  parseXml : Bytes → PyRes Xml
  /-- `str(ahb_location)` -/
  posStr : AhbLocation → PyStr

/-- the options — /repo/src/maus/cli.py:27-60 -/
structure CliOptions where
  flatAhbPath : FsPath
  sghPath : FsPath
  templatePath : FsPath
  checkPath : Option FsPath
  outputPath : Option FsPath

/-- `click.Path(exists=True)`: the path exists and is readable, otherwise click ends with a usage error — cli.py:31, 38, 45, 52 -/
def clickExistingPath (env : FileEnv) (p : FsPath) : FileProg Unit := fun w =>
  if w.fs.exists p && !env.readDenied p then (.ok (), w) else (.error .other, w)

/-- `click.Path(dir_okay=False, file_okay=True)`: if the path exists, then it is a readable file — cli.py:58 -/
def clickOutputPath (env : FileEnv) (p : FsPath) : FileProg Unit := fun w =>
  if w.fs.exists p && (w.fs.isDir p || env.readDenied p) then (.error .other, w) else (.ok (), w)

/-- do something with an optional value (serves cli.py:26-60) -/
def forOption {α : Type} (o : Option α) (f : α → FileProg Unit) : FileProg Unit :=
  match o with
  | none => FileProg.ret ()
  | some a => f a

/-- the checks that click makes before `main` is called — cli.py:27-60 -/
def clickChecks (env : FileEnv) (o : CliOptions) : FileProg Unit := do
  clickExistingPath env o.flatAhbPath
  clickExistingPath env o.sghPath
  clickExistingPath env o.templatePath
  forOption o.checkPath (clickExistingPath env)
  forOption o.outputPath (clickOutputPath env)

/-- `open(path, "r", encoding="utf-8")` and `read()` (serves cli.py:62-114) -/
def readText (env : FileEnv) (p : FsPath) : FileProg PyStr := do
  let content ← readBytes env p
  lift (decodeUtf8 content)

/-- `indent=2, ensure_ascii=False, sort_keys=True` — cli.py:99 -/
def cliStyle : JsonStyle := { indent := some 2, ensureAscii := false, sortKeys := true }

/-- `MigXmlReader(template_path)`: the file is parsed twice — /repo/src/maus/reader/mig_xml_reader.py:53-70 -/
def readMig (env : CliEnv) (p : FsPath) : FileProg Xml := do
  let content ← readBytes env.files p
  let original ← lift (env.parseXml content)
  let content' ← readBytes env.files p
  let _ ← lift (env.parseXml content')
  pure original

/-- the MIG reader as `to_deep_ahb` uses it (serves mig_ahb_matching.py:131) -/
def migLookup (root : Xml) : MigLookup := fun location => (getEdifactStack root location).map some

/-- reading the input files and creating the MAUS — cli.py:81-89 -/
def generate (env : CliEnv) (o : CliOptions) : FileProg DeepAhb := do
  let flatText ← readText env.files o.flatAhbPath
  let flat ← lift ((jsonLoads flatText).bind FlatAhb.load)
  let sghText ← readText env.files o.sghPath
  let sgh ← lift ((jsonLoads sghText).bind Sgh.load)
  let root ← readMig env o.templatePath
  let (_, maus) ← lift (toDeepAhb (migLookup root) env.posStr flat sgh)
  pure maus

/-- writing the MAUS — cli.py:95-99 -/
def writeMaus (env : FileEnv) (maus : DeepAhb) (p : FsPath) : FileProg Unit :=
  writeBytes env p (encodeUtf8 (jsonDumps cliStyle maus.dump))

/-- comparing the MAUS with a stored one — cli.py:101-114 -/
def checkMaus (env : FileEnv) (maus : DeepAhb) (p : FsPath) : FileProg Unit := do
  let text ← readText env p
  let expected ← lift ((jsonLoads text).bind DeepAhb.load)
  if expected.resetAhbLineIndex = maus.resetAhbLineIndex then say true
  else do
    say false
    lift (.error .abort)

/-- `main` — cli.py:62-114 -/
def cliMain (env : CliEnv) (o : CliOptions) : FileProg Unit :=
  if (o.checkPath.isNone && o.outputPath.isNone) || (o.checkPath.isSome && o.outputPath.isSome) then do
    say false
    lift (.error .abort)
  else do
    let maus ← generate env o
    if o.outputPath.isSome && o.checkPath.isSome then do
      say false
      lift (.error .abort)
    else do
      forOption o.outputPath (writeMaus env.files maus)
      forOption o.checkPath (checkMaus env.files maus)

/-- the command: click's checks, then `main` — cli.py:25-114 -/
def cliCommand (env : CliEnv) (o : CliOptions) : FileProg Unit := do
  clickChecks env.files o
  cliMain env o

/-! ## maus_provider -/

/-- a `pathlib.PurePosixPath` without `..` (serves maus_provider.py:55-66) -/
structure PurePath where
  absolute : Bool
  parts : List PyStr
  deriving DecidableEq

/-- `base / other`: an absolute path replaces the base (serves maus_provider.py:55-66) -/
def PurePath.join (base other : PurePath) : PurePath :=
  if other.absolute then other else { base with parts := base.parts ++ other.parts }

/-- the operating system resolves a relative path from the working directory (serves maus_provider.py:55-66) -/
def PurePath.resolved (cwd : FsPath) (p : PurePath) : FsPath := if p.absolute then p.parts else cwd ++ p.parts

/-- `try: … except FileNotFoundError: return None` (serves maus_provider.py:59-66) -/
def noneIfNotFound {α : Type} (p : FileProg α) : FileProg (Option α) := fun w =>
  match p w with
  | (.ok a, w') => (.ok (some a), w')
  | (.error .fileNotFoundError, w') => (.ok none, w')
  | (.error e, w') => (.error e, w')

/-- `FileBasedMausProvider.get_maus`; `toPath` is the abstract method `to_path`, `decode` reads a text in the encoding of the
provider — /repo/src/maus/maus_provider.py:55-66 -/
def getMaus {F V : Type} (env : FileEnv) (cwd : FsPath) (basePath : PurePath) (decode : Bytes → PyRes PyStr)
    (toPath : F → V → PyStr → PyRes PurePath) (format : F) (version : V) (pruefidentifikator : PyStr) :
    FileProg (Option DeepAhb) := do
  let relativePath ← lift (toPath format version pruefidentifikator)
  let fullPath := basePath.join relativePath
  noneIfNotFound do
    let content ← readBytes env (fullPath.resolved cwd)
    let text ← lift (decode content)
    lift ((jsonLoads text).bind DeepAhb.load)

/-! ## tree_to_sgh -/

/-- the argument of `read_tree`: a path, a text or something else — /repo/src/maus/reader/tree_to_sgh.py:46 -/
inductive TreeArg where
  | path (p : FsPath)
  | text (s : PyStr)
  | something

/-- `read_tree`; `parse` is the Lark parser — tree_to_sgh.py:46-61 -/
def readTree {τ : Type} (env : FileEnv) (parse : PyStr → PyRes τ) (tree : TreeArg) : FileProg τ :=
  match tree with
  | .path p => do
    let treeStr ← readText env p
    lift (parse treeStr)
  | .text s => lift (parse s)
  | .something => lift (.error .valueError)

/-- `check_file_can_be_parsed_as_tree` — tree_to_sgh.py:67-72 -/
def checkFileCanBeParsedAsTree {τ : Type} (env : FileEnv) (parse : PyStr → PyRes τ) (p : FsPath) : FileProg Unit := do
  let _ ← readTree env parse (.path p)
  pure ()

/-- the pattern `*.tree`: any text (also the empty one), then `.tree` (serves tree_to_sgh.py:85) -/
def isTreeName (name : PyStr) : Bool := py!".tree".isSuffixOf name

/-- insert a name into a descending list (serves tree_to_sgh.py:85) -/
def insertName (n : PyStr) : List PyStr → List PyStr
  | [] => [n]
  | m :: l => if m ≤ n then n :: m :: l else m :: insertName n l

/-- `sorted(…, reverse=True)`; the paths differ in the last name only, so they are compared by name (serves tree_to_sgh.py:85) -/
def sortNames (l : List PyStr) : List PyStr := l.foldr insertName []

/-- the names in a directory; `glob` finds nothing in a directory that may not be read (serves tree_to_sgh.py:85) -/
def treeNames (env : FileEnv) (fs : FsNode) (dir : FsPath) : List PyStr :=
  match fs.resolve dir with
  | .ok (.dir es) => if env.readDenied dir then [] else (es.map Prod.fst).filter isTreeName
  | _ => []

/-- `check_youngest_tree_is_parseable` — tree_to_sgh.py:75-89 -/
def checkYoungestTreeIsParseable {τ : Type} (env : FileEnv) (parse : PyStr → PyRes τ) (dir : FsPath) : FileProg Unit := fun w =>
  if !w.fs.exists dir then (.ok (), w)
  else if !w.fs.isDir dir then (.error .valueError, w)
  else match sortNames (treeNames env w.fs dir) with
    | [] => (.ok (), w)
    | name :: _ => checkFileCanBeParsedAsTree env parse (dir ++ [name]) w

end Verif
