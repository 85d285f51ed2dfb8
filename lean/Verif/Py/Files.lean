import Verif.Py.Base
import Verif.Py.Dict
/-!
# Files: the file system, `open`, `os.stat` and text encoding

A file system is a tree of directories and regular files. A resolved path is the list of the names on the way from the root.
Not modelled: symbolic and hard links, `..`, special files. Processes that act at the same time: `Py/FileTask.lean`. Permissions
and a full device are modelled by the environment `FileEnv`.
-/

namespace Verif

/-- file contents -/
abbrev Bytes := List UInt8

/-- a file or a directory with its entries -/
inductive FsNode where
  | file (content : Bytes)
  | dir (entries : List (PyStr × FsNode))

/-- a resolved path -/
abbrev FsPath := List PyStr

namespace FsNode

/-- path resolution by the operating system: `ENOENT` is a `FileNotFoundError`, `ENOTDIR` a `NotADirectoryError` (another subclass
of `OSError`) -/
def resolve : FsNode → FsPath → PyRes FsNode
  | n, [] => .ok n
  | .file _, _ :: _ => .error .other
  | .dir es, c :: p => match dictGet c es with
    | none => .error .fileNotFoundError
    | some n => n.resolve p

/-- `open(path, "w")` and what is written to the file afterwards: replaces the content of a file or creates it; `EISDIR`,
`ENOTDIR`, and `ENOENT` if the directory does not exist -/
def store (content : Bytes) : FsNode → FsPath → PyRes FsNode
  | .file _, [] => .ok (.file content)
  | .dir _, [] => .error .other
  | .file _, _ :: _ => .error .other
  | .dir es, c :: p => match dictGet c es with
    | some n => (n.store content p).map fun n' => .dir (dictSet c n' es)
    | none => if p.isEmpty then .ok (.dir (dictSet c (.file content) es)) else .error .fileNotFoundError

end FsNode

/-- what the operating system does not allow -/
structure FileEnv where
  /-- no permission to read -/
  readDenied : FsPath → Bool
  /-- no permission to write -/
  writeDenied : FsPath → Bool
  /-- the number of bytes that still fit on the device (`none`: no limit) -/
  space : Option Nat

/-- the part of the content that fits on the device -/
def FileEnv.fitting (env : FileEnv) (content : Bytes) : Bytes :=
  match env.space with
  | none => content
  | some n => content.take n

/-- what a program does and an observer can see -/
inductive FileEvent where
  /-- a file has been opened for reading -/
  | opened (path : FsPath)
  /-- a file has been opened for writing; it exists and is empty now -/
  | truncated (path : FsPath)
  /-- bytes have been written to a file that has been truncated before -/
  | wrote (path : FsPath) (content : Bytes)
  /-- a message on the terminal; `good` for a message of success -/
  | said (good : Bool)
  deriving DecidableEq

/-- the state of the world -/
structure FileWorld where
  fs : FsNode
  log : List FileEvent

/-- a program that acts on the world and may raise -/
def FileProg (α : Type) : Type := FileWorld → PyRes α × FileWorld

namespace FileProg

/-- return a value -/
def ret {α : Type} (a : α) : FileProg α := fun w => (.ok a, w)

/-- one program after the other; an exception ends the program -/
def seq {α β : Type} (p : FileProg α) (f : α → FileProg β) : FileProg β := fun w =>
  match p w with
  | (.ok a, w') => f a w'
  | (.error e, w') => (.error e, w')

instance : Monad FileProg where
  pure := FileProg.ret
  bind := FileProg.seq

/-- a computation without effects -/
def lift {α : Type} (r : PyRes α) : FileProg α := fun w => (r, w)

/-- print a message (`click.secho`) -/
def say (good : Bool) : FileProg Unit := fun w => (.ok (), { w with log := w.log ++ [.said good] })

/-- `open(path, "rb").read()` -/
def readBytes (env : FileEnv) (p : FsPath) : FileProg Bytes := fun w =>
  match w.fs.resolve p with
  | .error e => (.error e, w)
  | .ok (.dir _) => (.error .other, w)
  | .ok (.file content) =>
    if env.readDenied p then (.error .other, w) else (.ok content, { w with log := w.log ++ [.opened p] })

/-- `with open(path, "w") as f: f.write(…)`. If the device is full, the file is left with the first part of the content. -/
def writeBytes (env : FileEnv) (p : FsPath) (content : Bytes) : FileProg Unit := fun w =>
  if env.writeDenied p then (.error .other, w)
  else match w.fs.store [] p with
    | .error e => (.error e, w)
    | .ok fs =>
      match fs.store (env.fitting content) p with
      | .error e => (.error e, { fs := fs, log := w.log ++ [.truncated p] })
      | .ok fs' =>
        (if env.fitting content = content then .ok () else .error .other,
          { fs := fs', log := w.log ++ [.truncated p, .wrote p (env.fitting content)] })

end FileProg

/-! ## text -/

/-- universal newlines: `\r\n` and `\r` are read as `\n` -/
def universalNewlines : PyStr → PyStr
  | [] => []
  | '\r' :: '\n' :: s => '\n' :: universalNewlines s
  | '\r' :: s => '\n' :: universalNewlines s
  | c :: s => c :: universalNewlines s

/-- reading a text file with `encoding="utf-8"`; a `UnicodeDecodeError` is a `ValueError` -/
def decodeUtf8 (b : Bytes) : PyRes PyStr :=
  match b.toByteArray.utf8Decode? with
  | none => .error .valueError
  | some a => .ok (universalNewlines a.toList)

/-- writing a text file with `encoding="utf-8"` (on Linux: `\n` stays `\n`) -/
def encodeUtf8 (s : PyStr) : Bytes := s.flatMap String.utf8EncodeChar

/-! ## `os.stat` -/

/-- `os.path.exists(path)`, `Path.exists()`: every error of `os.stat` means no -/
def FsNode.exists (n : FsNode) (p : FsPath) : Bool :=
  match n.resolve p with
  | .ok _ => true
  | .error _ => false

/-- `Path.is_dir()` -/
def FsNode.isDir (n : FsNode) (p : FsPath) : Bool :=
  match n.resolve p with
  | .ok (.dir _) => true
  | _ => false

end Verif
