import Verif.Py.FileTask
import Verif.Model.Cli
/-!
# Model of `maus.cli` as a sequence of operations on files

The same as `Model/Cli.lean`, but other programs may act between two operations (`Py/FileTask.lean`).
-/

namespace Verif
open FileTask

/-- `click.Path(exists=True)` — /repo/src/maus/cli.py:31, 38, 45, 52 -/
def clickExistingTask (env : FileEnv) (p : FsPath) : FileTask Unit :=
  .stat p fun there _ => .done (if there && !env.readDenied p then .ok () else .error .other)

/-- `click.Path(dir_okay=False, file_okay=True)` — cli.py:58 -/
def clickOutputTask (env : FileEnv) (p : FsPath) : FileTask Unit :=
  .stat p fun there isDir => .done (if there && (isDir || env.readDenied p) then .error .other else .ok ())

/-- do something with an optional value (serves cli.py:26-60) -/
def forOptionTask {α : Type} (o : Option α) (f : α → FileTask Unit) : FileTask Unit :=
  match o with
  | none => .done (.ok ())
  | some a => f a

/-- the checks that click makes before `main` is called — cli.py:27-60 -/
def clickTask (env : FileEnv) (o : CliOptions) : FileTask Unit := do
  clickExistingTask env o.flatAhbPath
  clickExistingTask env o.sghPath
  clickExistingTask env o.templatePath
  forOptionTask o.checkPath (clickExistingTask env)
  forOptionTask o.outputPath (clickOutputTask env)

/-- `open(path, "r", encoding="utf-8")` and `read()` (serves cli.py:62-114) -/
def readTextTask (env : FileEnv) (p : FsPath) : FileTask PyStr := do
  let content ← FileTask.readBytes env p
  FileTask.lift (decodeUtf8 content)

/-- `MigXmlReader(template_path)`: the file is parsed twice — /repo/src/maus/reader/mig_xml_reader.py:53-70 -/
def readMigTask (env : CliEnv) (p : FsPath) : FileTask Xml := do
  let content ← FileTask.readBytes env.files p
  let original ← FileTask.lift (env.parseXml content)
  let content' ← FileTask.readBytes env.files p
  let _ ← FileTask.lift (env.parseXml content')
  pure original

/-- reading the input files and creating the MAUS — cli.py:81-89 -/
def generateTask (env : CliEnv) (o : CliOptions) : FileTask DeepAhb := do
  let flatText ← readTextTask env.files o.flatAhbPath
  let flat ← FileTask.lift ((jsonLoads flatText).bind FlatAhb.load)
  let sghText ← readTextTask env.files o.sghPath
  let sgh ← FileTask.lift ((jsonLoads sghText).bind Sgh.load)
  let root ← readMigTask env o.templatePath
  let (_, maus) ← FileTask.lift (toDeepAhb (migLookup root) env.posStr flat sgh)
  pure maus

/-- writing the MAUS — cli.py:95-99 -/
def writeMausTask (env : FileEnv) (maus : DeepAhb) (p : FsPath) : FileTask Unit :=
  FileTask.writeBytes env p (encodeUtf8 (jsonDumps cliStyle maus.dump))

/-- comparing the MAUS with a stored one — cli.py:101-114 -/
def checkMausTask (env : FileEnv) (maus : DeepAhb) (p : FsPath) : FileTask Unit := do
  let text ← readTextTask env p
  let expected ← FileTask.lift ((jsonLoads text).bind DeepAhb.load)
  if expected.resetAhbLineIndex = maus.resetAhbLineIndex then .say true (.done (.ok ()))
  else .say false (.done (.error .abort))

/-- `main` — cli.py:62-114 -/
def mainTask (env : CliEnv) (o : CliOptions) : FileTask Unit :=
  if (o.checkPath.isNone && o.outputPath.isNone) || (o.checkPath.isSome && o.outputPath.isSome) then
    .say false (.done (.error .abort))
  else do
    let maus ← generateTask env o
    if o.outputPath.isSome && o.checkPath.isSome then .say false (.done (.error .abort))
    else do
      forOptionTask o.outputPath (writeMausTask env.files maus)
      forOptionTask o.checkPath (checkMausTask env.files maus)

/-- the command: click's checks, then `main` — cli.py:25-114 -/
def cliTask (env : CliEnv) (o : CliOptions) : FileTask Unit := do
  clickTask env.files o
  mainTask env o

end Verif
