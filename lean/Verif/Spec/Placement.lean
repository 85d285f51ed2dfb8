import Verif.Spec.TemplatePath
import Verif.Spec.Matching
/-!
# Specification: the group in which a segment is placed
-/

namespace Verif

/-- the paths for which a group has been opened by a sequence of runs -/
def usedBefore (reader : MigLookup) (runs : List Run) : List PyStr := runs.foldl (fun used r => r.usedAfter reader used) []

/-- the `n`-th of the runs creates the item -/
def CreatedBy (reader : MigLookup) (posStr : AhbLocation → PyStr) (runs : List Run) (n : Nat) (x : DocItem) : Prop :=
  ∃ r, runs[n]? = some r ∧ x ∈ r.created reader posStr (usedBefore reader (runs.take n))

/-- the item is a group -/
def DocItem.IsGroup (x : DocItem) : Prop := ∃ d e i, x = .group d e i

/-- the item is a segment -/
def DocItem.IsSegment (x : DocItem) : Prop := ∃ d e i n s, x = .segment d e i n s

/-- the discriminators show the nesting: the discriminator of a data element begins with that of the group it is in, and the discriminator
of a segment is that of its group unless it is not a JSON path of the template -/
def ShowsNesting (root : Xml) (lines : List SegmentGroup) : Prop :=
  ∀ g s, GroupOccurs lines g → s ∈ g.ownSegments →
    (s.discriminator = g.discriminator ∨ ¬ ∃ d path es, s.discriminator = some d ∧ LeadsTo root d path es) ∧
    ∀ de ∈ s.dataElements, ∀ d e, g.discriminator = some d → de.discriminator = some e → d <+: e

/-- whatever is created belongs to the group that has been opened last: its location has the layers of the location that opened the group -/
def StaysInGroup (reader : MigLookup) (posStr : AhbLocation → PyStr) (runs : List Run) : Prop :=
  ∀ n m opener run x y, n ≤ m → runs[n]? = some opener → runs[m]? = some run → CreatedBy reader posStr runs n x → x.IsGroup →
    CreatedBy reader posStr runs m y → (∀ k z, n < k → k ≤ m → CreatedBy reader posStr runs k z → ¬ z.IsGroup) →
    run.1.layers = opener.1.layers

end Verif
