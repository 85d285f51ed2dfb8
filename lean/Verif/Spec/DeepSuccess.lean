import Verif.Spec.Matching
import Verif.Spec.Constructors
/-!
# Specification: when `to_deep_ahb` succeeds

Conditions on single runs of lines (`Run.Fine`), on the first thing that is created (`StartsWithRoot`) and on the order in which groups
are opened (`OpeningsFit`). No tree and no references occur here; of the position in the tree only the depth matters.
-/

namespace Verif

/-- the MIG reader finds the location or says by a `ValueError` that it does not -/
def Responds (reader : MigLookup) (l : AhbLocation) : Prop := ∀ e, reader l = .error e → e = .valueError

/-- the conditions on a run of lines with a segment code -/
structure Run.Fine (reader : MigLookup) (r : Run) : Prop where
  /-- the MIG reader responds for the location of the run, and for the location of its first line if it is asked for it -/
  location : Responds reader r.location
  firstLocation : reader r.location = .error .valueError → ∀ x y rest, r.2 = x :: y :: rest → Responds reader x.2
  /-- value pool: each line with an expression has a name and an acceptable qualifier -/
  pool : r.hasDataElement = true → ∀ first, r.lines.head? = some first → first.valuePoolEntry ≠ none →
    ∀ l ∈ r.lines, l.ahbExpression ≠ none → l.name ≠ none ∧ SomeOf AcceptableQualifier l.valuePoolEntry
  /-- free text: if any line has an expression, the first line has -/
  freeText : r.hasDataElement = true → ∀ first, r.lines.head? = some first → first.valuePoolEntry = none →
    r.hasExpression = true → first.ahbExpression ≠ none
  /-- segment: the last line has the segment code -/
  segment : r.hasDataElement = false → ∀ last, r.lines.getLast? = some last → last.segmentCode ≠ none

/-- the first thing that is created, if any, is the group of the message root -/
def StartsWithRoot (items : List DocItem) : Prop :=
  ∀ x, items.head? = some x → ∃ e i, x = .group (some py!"$[\"Dokument\"][0][\"Nachricht\"][0]") e i

/-- how many layers two locations share, counted from the outermost layer -/
def sharedLayers : List AhbLocationLayer → List AhbLocationLayer → Nat
  | x :: xs, y :: ys => if x = y then sharedLayers xs ys + 1 else 0
  | _, _ => 0

/-- the depth of a new group, if it can be inserted: `depth` is the depth of the group that was opened before, `previous` are the layers
of the location that was used before, `layers` those of the new group. Inside of the previous location it goes one level down; otherwise
so many levels up as layers are left, and down as many as layers are entered, where it has to find existing groups on all levels but
the last. -/
def depthAfter? (depth : Nat) (previous layers : List AhbLocationLayer) : Option Nat :=
  let shared := sharedLayers previous layers
  let up := previous.length - shared
  let down := layers.length - shared
  if up = 0 then some (depth + 1)
  else if shared ≠ 0 ∧ up ≤ depth ∧ down ≤ up + 1 then some (depth - up + max down 1)
  else none

/-- every group can be inserted, starting with the given depth -/
def OpeningsFit : Nat → List Opening → Prop
  | _, [] => True
  | depth, o :: os => ∃ previous depth', o.previous = some previous ∧ depthAfter? depth previous o.layers = some depth' ∧
      OpeningsFit depth' os

end Verif
