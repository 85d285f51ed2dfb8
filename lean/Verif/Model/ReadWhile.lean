import Verif.Model.Cli
/-!
# Model: reading a MAUS file while it is written

`FileBasedMausProvider.get_maus` opens the file and reads it to its end; the command line tool opens it (which makes it empty, or creates it)
and writes the new content piece by piece. If both happen at the same time, their operations on the file take turns. The operating system
may deliver a read in pieces of any size, and what is in the buffer of the writer may be written in pieces of any size. Reading goes on where
the previous read has ended, whatever has happened to the file; a read beyond the end of the file returns nothing, which ends the reading.

Model/Cli.lean and Model/CliTask.lean read a file at one moment instead.
-/

namespace Verif

/-- the reader: before `open`, with the bytes read so far (their number is the position in the file), or at the end: with no file or with
all bytes — /repo/src/maus/maus_provider.py:61-62 -/
inductive ReaderState where
  | before
  | reading (got : Bytes)
  | done (result : Option Bytes)
  deriving DecidableEq

/-- the file, if there is one; what the writer still has to write, if it has opened the file; and the reader
— maus_provider.py:61-62, /repo/src/maus/cli.py:98-99 -/
structure ReadWriteState where
  content : Option Bytes
  pending : Option Bytes
  reader : ReaderState
  deriving DecidableEq

/-- an operation of the writer or of the reader -/
inductive ReadWriteOp where
  /-- `open(output_path, "w")` — cli.py:98 -/
  | truncate
  /-- at most so many bytes are written — cli.py:99 -/
  | write (n : Nat)
  /-- `open(full_path, "r")` — maus_provider.py:61 -/
  | openFile
  /-- at most so many bytes are read (at least one is asked for) — maus_provider.py:62 -/
  | read (n : Nat)

/-- one operation; `new` is what the writer writes. An operation that is not possible in a state changes nothing. The writer may stop at
any time (it may be killed) — cli.py:98-99, maus_provider.py:61-62 -/
def ReadWriteState.step (new : Bytes) (s : ReadWriteState) : ReadWriteOp → ReadWriteState
  | .truncate =>
    match s.pending with
    | none => { s with content := some [], pending := some new }
    | some _ => s
  | .write n =>
    match s.pending, s.content with
    | some rest, some c => { s with content := some (c ++ rest.take n), pending := some (rest.drop n) }
    | _, _ => s
  | .openFile =>
    match s.reader with
    | .before => { s with reader := if s.content.isSome then .reading [] else .done none }
    | _ => s
  | .read n =>
    match s.reader with
    | .reading got =>
      let piece := ((s.content.getD []).drop got.length).take (n + 1)
      { s with reader := if piece.isEmpty then .done (some got) else .reading (got ++ piece) }
    | _ => s

/-- operations in any order — cli.py:98-99, maus_provider.py:61-62 -/
def ReadWriteState.run (new : Bytes) (s : ReadWriteState) (ops : List ReadWriteOp) : ReadWriteState := ops.foldl (ReadWriteState.step new) s

/-- before both: `old` is the content of the file, if there is one — cli.py:98-99, maus_provider.py:61-62 -/
def ReadWriteState.start (old : Option Bytes) : ReadWriteState := { content := old, pending := none, reader := .before }

/-- what `get_maus` does with the bytes it has read: `None` without a file — maus_provider.py:60-66 -/
def mausOfBytes : Option Bytes → PyRes (Option DeepAhb)
  | none => .ok none
  | some b => do
    let text ← decodeUtf8 b
    let maus ← (jsonLoads text).bind DeepAhb.load
    pure (some maus)

end Verif
