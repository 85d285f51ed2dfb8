import Verif.Py.Files
/-!
# Programs that run at the same time

A `FileTask` is a program as a sequence of operations on files, so that other programs may act between two operations. Opening a
file for writing empties it; its content is written in pieces of any size. A file is read in one go. Not modelled: an end of the
space on the device that is caused by another program (every program has got its own `FileEnv`).
-/

namespace Verif

/-- `open(path, "rb").read()` -/
def FsNode.readFile (fs : FsNode) (p : FsPath) (denied : Bool) : PyRes Bytes :=
  match fs.resolve p with
  | .error e => .error e
  | .ok (.dir _) => .error .other
  | .ok (.file content) => if denied then .error .other else .ok content

/-- `open(path, "w")` -/
def FsNode.createFile (fs : FsNode) (p : FsPath) (denied : Bool) : PyRes FsNode :=
  if denied then .error .other else fs.store [] p

/-- bytes are written at a position of a file; a gap is filled with zeros -/
def overwrite (content : Bytes) (position : Nat) (part : Bytes) : Bytes :=
  (content ++ List.replicate (position - content.length) 0).take position ++ part ++ content.drop (position + part.length)

/-- `write` to a file that has been opened before: the bytes are written at the position of the program in the file, whatever other
programs have done to the file meanwhile -/
def FsNode.writeAt (fs : FsNode) (p : FsPath) (position : Nat) (part : Bytes) : PyRes FsNode :=
  match fs.resolve p with
  | .ok (.file content) => fs.store (overwrite content position part) p
  | .ok (.dir _) => .error .other
  | .error e => .error e

/-- a program that acts on files and may raise -/
inductive FileTask (α : Type) where
  /-- it has ended -/
  | done (r : PyRes α)
  /-- `os.stat`: does the path exist, and is it a directory? -/
  | stat (p : FsPath) (k : Bool → Bool → FileTask α)
  /-- a file is opened and read -/
  | read (p : FsPath) (denied : Bool) (k : PyRes Bytes → FileTask α)
  /-- a file is opened for writing -/
  | create (p : FsPath) (denied : Bool) (k : PyRes Unit → FileTask α)
  /-- a part of the content has been written to a file that has been opened before, and the rest has to be written -/
  | write (p : FsPath) (written rest : Bytes) (k : PyRes Unit → FileTask α)
  /-- a message on the terminal -/
  | say (good : Bool) (k : FileTask α)

namespace FileTask

/-- one program after the other; an exception ends the program -/
def seq {α β : Type} (t : FileTask α) (f : α → FileTask β) : FileTask β :=
  match t with
  | .done (.ok a) => f a
  | .done (.error e) => .done (.error e)
  | .stat p k => .stat p fun a b => (k a b).seq f
  | .read p denied k => .read p denied fun r => (k r).seq f
  | .create p denied k => .create p denied fun r => (k r).seq f
  | .write p written rest k => .write p written rest fun r => (k r).seq f
  | .say good k => .say good (k.seq f)

instance : Monad FileTask where
  pure a := .done (.ok a)
  bind := seq

/-- a computation without effects -/
def lift {α : Type} (r : PyRes α) : FileTask α := .done r

/-- `open(path, "rb").read()` -/
def readBytes (env : FileEnv) (p : FsPath) : FileTask Bytes := .read p (env.readDenied p) .done

/-- `with open(path, "w") as f: f.write(…)` -/
def writeBytes (env : FileEnv) (p : FsPath) (content : Bytes) : FileTask Unit :=
  .create p (env.writeDenied p) fun r => match r with
    | .error e => .done (.error e)
    | .ok _ => .write p [] (env.fitting content) fun r => match r with
      | .error e => .done (.error e)
      | .ok _ => .done (if env.fitting content = content then .ok () else .error .other)

end FileTask

/-- one operation of a program; a part of the content of a file is written at a time -/
inductive TaskStep {α : Type} : FileTask α → FsNode → FileTask α → FsNode → Prop
  | stat (p : FsPath) (k : Bool → Bool → FileTask α) (fs : FsNode) : TaskStep (.stat p k) fs (k (fs.exists p) (fs.isDir p)) fs
  | read (p : FsPath) (denied : Bool) (k : PyRes Bytes → FileTask α) (fs : FsNode) :
      TaskStep (.read p denied k) fs (k (fs.readFile p denied)) fs
  | created (p : FsPath) (denied : Bool) (k : PyRes Unit → FileTask α) (fs fs' : FsNode) (h : fs.createFile p denied = .ok fs') :
      TaskStep (.create p denied k) fs (k (.ok ())) fs'
  | notCreated (p : FsPath) (denied : Bool) (k : PyRes Unit → FileTask α) (fs : FsNode) (e : Exc)
      (h : fs.createFile p denied = .error e) : TaskStep (.create p denied k) fs (k (.error e)) fs
  | written (p : FsPath) (written part rest : Bytes) (k : PyRes Unit → FileTask α) (fs fs' : FsNode) (hp : part ≠ [])
      (h : fs.writeAt p written.length part = .ok fs') :
      TaskStep (.write p written (part ++ rest) k) fs (.write p (written ++ part) rest k) fs'
  | notWritten (p : FsPath) (written part rest : Bytes) (k : PyRes Unit → FileTask α) (fs : FsNode) (e : Exc) (hp : part ≠ [])
      (h : fs.writeAt p written.length part = .error e) : TaskStep (.write p written (part ++ rest) k) fs (k (.error e)) fs
  | closed (p : FsPath) (written : Bytes) (k : PyRes Unit → FileTask α) (fs : FsNode) :
      TaskStep (.write p written [] k) fs (k (.ok ())) fs
  | say (good : Bool) (k : FileTask α) (fs : FsNode) : TaskStep (.say good k) fs k fs

end Verif
