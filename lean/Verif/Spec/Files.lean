import Verif.Py.Files
/-!
# Specification vocabulary for file systems
-/

namespace Verif

/-- the content of the regular file with this path, if there is one -/
def FsNode.contentAt (n : FsNode) (p : FsPath) : Option Bytes :=
  match n.resolve p with
  | .ok (.file b) => some b
  | _ => none

/-- the two file systems have the same directories, and the same files with the same content, except for the file `p` -/
def FsNode.SameExcept (p : FsPath) (a b : FsNode) : Prop :=
  ∀ q, (a.isDir q = b.isDir q) ∧ (q ≠ p → a.contentAt q = b.contentAt q)

/-- events in which a file is touched -/
def FileEvent.touches : FileEvent → Option FsPath
  | .opened p => some p
  | .truncated p => some p
  | .wrote p _ => some p
  | .said _ => none

/-- events in which a file is changed -/
def FileEvent.changes : FileEvent → Option FsPath
  | .opened _ => none
  | .truncated p => some p
  | .wrote p _ => some p
  | .said _ => none

/-- the file system after an event -/
def FileEvent.Effect : FileEvent → FsNode → FsNode → Prop
  | .opened _, a, b => a = b
  | .said _, a, b => a = b
  | .truncated p, a, b => a.store [] p = .ok b
  | .wrote p content, a, b => a.store content p = .ok b

/-- the file system that is found if a program with these events is interrupted (killed, power failure): some of the events have
taken place, and a file in writing has got some first part of its content -/
inductive Interrupted : FsNode → List FileEvent → FsNode → Prop
  | now (fs : FsNode) (log : List FileEvent) : Interrupted fs log fs
  | while (fs fs' : FsNode) (p : FsPath) (content part : Bytes) (log : List FileEvent) :
      part <+: content → fs.store part p = .ok fs' → Interrupted fs (.wrote p content :: log) fs'
  | later (fs fs' fs'' : FsNode) (e : FileEvent) (log : List FileEvent) :
      e.Effect fs fs' → Interrupted fs' log fs'' → Interrupted fs (e :: log) fs''

end Verif
