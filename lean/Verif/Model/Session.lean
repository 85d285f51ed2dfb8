import Verif.Model.FlatEdit
import Verif.Model.DeepAssign
import Verif.Model.Csv
import Verif.Model.Matching
/-!
# Model: what is shared by the objects that are made from one CSV reader

A `FlatAhbCsvReader` keeps its `AhbLine`s. Every call of `to_flat_ahb` makes a new list of references to them, and new meta information. A
deep AHB refers to the meta information of the flat AHB it was converted from; its groups, segments and data elements are new objects
(Model/DeepHeap.lean). `extract_condition_texts` returns a reference to the dictionary of the reader.

Not in the model: assignments to the attributes of the reader, assignments of another `AhbMetaInformation` to `meta`.
-/

namespace Verif

/-- a reader and the objects made from it. `lines` are the `AhbLine`s there are (including those that are created later on), `metas` the
`AhbMetaInformation`s, of which the first `metaCount` are in use. A flat AHB refers to its meta information and to its lines, a deep AHB
to its meta information; its groups are its own — /repo/src/maus/reader/flat_ahb_reader.py:52-68, 176-182, 262-273,
/repo/src/maus/mig_ahb_matching.py:100-101 -/
structure Session where
  lines : Nat → AhbLine
  metas : Nat → AhbMetaInformation
  metaCount : Nat
  pruefidentifikator : PyStr
  rows : List Nat
  conditions : List (PyStr × PyStr)
  flats : List (Nat × List Nat)
  deeps : List (Nat × List SegmentGroup)

/-- a new reader (serves flat_ahb_reader.py:52-68) -/
def Session.ofReader (r : CsvReader) : Session :=
  { lines := fun i => r.rows.getD i {}
    metas := fun _ => { pruefidentifikator := [] }
    metaCount := 0
    pruefidentifikator := r.pruefidentifikator
    rows := List.range r.rows.length
    conditions := r.bedingungen
    flats := []
    deeps := [] }

/-- what is seen of the reader (serves flat_ahb_reader.py:52-68) -/
def Session.reader (s : Session) : CsvReader :=
  { rows := s.rows.map s.lines, pruefidentifikator := s.pruefidentifikator, bedingungen := s.conditions }

/-- what is seen of the `i`-th flat AHB (serves flat_ahb_reader.py:262-273) -/
def Session.flat? (s : Session) (i : Nat) : Option FlatAhb :=
  (s.flats[i]?).map fun f => { ahbMeta := s.metas f.1, lines := f.2.map s.lines }

/-- what is seen of the `i`-th deep AHB (serves mig_ahb_matching.py:94-225) -/
def Session.deep? (s : Session) (i : Nat) : Option DeepAhb :=
  (s.deeps[i]?).map fun d => { ahbMeta := s.metas d.1, lines := d.2 }

/-- a step of a program that uses the reader -/
inductive SessionOp where
  /-- `reader.to_flat_ahb()` — flat_ahb_reader.py:262-273 -/
  | toFlat
  /-- `to_deep_ahb(flat, sgh, mig_reader)` for the `i`-th flat AHB — mig_ahb_matching.py:94-225 -/
  | toDeep (i : Nat) (mig : MigLookup) (posStr : AhbLocation → PyStr) (sgh : Sgh)
  /-- a change of the `i`-th flat AHB, or an assignment to a line (Model/FlatEdit.lean) -/
  | editFlat (i : Nat) (e : FlatEdit)
  /-- an assignment to an attribute of `flat.meta` — anwendungshandbuch.py:163-204 -/
  | assignFlatMeta (i : Nat) (a : MetaAttr)
  /-- an assignment to an attribute of `deep.meta` — anwendungshandbuch.py:163-204 -/
  | assignDeepMeta (i : Nat) (a : MetaAttr)
  /-- any change of the groups of the `i`-th deep AHB, or of anything below them -/
  | editDeep (i : Nat) (lines : List SegmentGroup)
  /-- `reader.extract_condition_texts()[key] = text` — flat_ahb_reader.py:176-182 -/
  | setCondition (key text : PyStr)

/-- an assignment to an attribute of an `AhbMetaInformation` (serves anwendungshandbuch.py:163-204) -/
def Session.assignMeta (s : Session) (m : Nat) (a : MetaAttr) : Session × Option Exc :=
  match (s.metas m).assign a with
  | .ok v => ({ s with metas := fun k => if k = m then v else s.metas k }, none)
  | .error e => (s, some e)

/-- the state after the step, and the exception if there is one — flat_ahb_reader.py:176-182, 262-273, mig_ahb_matching.py:94-225 -/
def Session.apply (s : Session) : SessionOp → Session × Option Exc
  | .toFlat =>
    match AhbMetaInformation.new { pruefidentifikator := s.pruefidentifikator } with
    | .error e => (s, some e)
    | .ok m =>
      let refs := s.rows.filter fun r => (s.lines r).holdsAnyInformation
      match FlatAhb.checkLines (refs.map s.lines) with
      | .error e => (s, some e)
      | .ok _ =>
        ({ s with metas := fun k => if k = s.metaCount then m else s.metas k, metaCount := s.metaCount + 1,
                  flats := s.flats ++ [(s.metaCount, refs)] }, none)
  | .toDeep i mig posStr sgh =>
    match s.flats[i]? with
    | none => (s, none)
    | some f =>
      -- `result.meta.maus_version = _VERSION` comes first — mig_ahb_matching.py:101
      let s := { s with metas := fun k => if k = f.1 then { s.metas k with mausVersion := some mausVersion } else s.metas k }
      match toDeepAhb mig posStr { ahbMeta := s.metas f.1, lines := f.2.map s.lines } sgh with
      | .error e => (s, some e)
      | .ok (_, deep) => ({ s with deeps := s.deeps ++ [(f.1, deep.lines)] }, none)
  | .editFlat i e =>
    match s.flats[i]? with
    | none => (s, none)
    | some f =>
      let (f', x) := FlatObj.apply { ahbMeta := s.metas f.1, heap := s.lines, refs := f.2 } e
      ({ s with lines := f'.heap, flats := s.flats.set i (f.1, f'.refs) }, x)
  | .assignFlatMeta i a =>
    match s.flats[i]? with
    | none => (s, none)
    | some f => s.assignMeta f.1 a
  | .assignDeepMeta i a =>
    match s.deeps[i]? with
    | none => (s, none)
    | some d => s.assignMeta d.1 a
  | .editDeep i lines =>
    match s.deeps[i]? with
    | none => (s, none)
    | some d => ({ s with deeps := s.deeps.set i (d.1, lines) }, none)
  | .setCondition key text => ({ s with conditions := dictSet key text s.conditions }, none)

/-- the state after some steps; exceptions are caught in between (serves flat_ahb_reader.py:52-273) -/
def Session.run (s : Session) (ops : List SessionOp) : Session := ops.foldl (fun s op => (s.apply op).1) s

end Verif
