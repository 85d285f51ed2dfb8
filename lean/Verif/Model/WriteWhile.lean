import Verif.Model.Cli
/-!
# Model: several runs of the command line tool that write the same file at the same time

Every run opens the file (which makes it empty, or creates it) and writes its MAUS piece by piece, each piece behind the previous one of the
same run. If the file has become shorter in the meantime, because another run has opened it, the operating system fills the gap with zeros.
-/

namespace Verif

/-- the file after writing a piece at a position — /repo/src/maus/cli.py:98-99 (POSIX `write`; nothing is written, the file is left as it is) -/
def overwriteAt (c : Bytes) (pos : Nat) (piece : Bytes) : Bytes :=
  if piece.isEmpty then c
  else (c ++ List.replicate (pos - c.length) 0).take pos ++ piece ++ c.drop (pos + piece.length)

/-- the file, if there is one, and for each run that has opened it, how many bytes it has written — cli.py:98-99 -/
structure WritersState where
  content : Option Bytes
  written : Nat → Option Nat

/-- an operation of one of the runs -/
inductive WritersOp where
  /-- `open(output_path, "w")` — cli.py:98 -/
  | openFile (i : Nat)
  /-- at most so many bytes are written — cli.py:99 -/
  | write (i n : Nat)

/-- one operation; `new i` is what the run `i` writes. An operation that is not possible changes nothing. A run may stop at any time
— cli.py:98-99 -/
def WritersState.step (new : Nat → Bytes) (s : WritersState) : WritersOp → WritersState
  | .openFile i =>
    match s.written i with
    | none => { content := some [], written := fun k => if k = i then some 0 else s.written k }
    | some _ => s
  | .write i n =>
    match s.written i, s.content with
    | some pos, some c =>
      let piece := ((new i).drop pos).take n
      { content := some (overwriteAt c pos piece), written := fun k => if k = i then some (pos + piece.length) else s.written k }
    | _, _ => s

/-- operations in any order — cli.py:98-99 -/
def WritersState.run (new : Nat → Bytes) (s : WritersState) (ops : List WritersOp) : WritersState := ops.foldl (WritersState.step new) s

/-- before all runs: `old` is the content of the file, if there is one — cli.py:98-99 -/
def WritersState.start (old : Option Bytes) : WritersState := { content := old, written := fun _ => none }

end Verif
