import Verif.Spec.DeepOps
import Verif.Model.DeepRef
/-!
# Specification vocabulary: the objects of a deep AHB and the order in which they are searched
-/

namespace Verif

/-- the data element at a place -/
def elementAt? (l : List SegmentGroup) (x : ElementAddr) : Option DataElement :=
  (groupAt? l x.group).bind fun g => (g.ownSegments[x.segment]?).bind fun s => s.dataElements[x.element]?

/-- the order in which `get_all_value_pools` comes across the data elements: the lines of the AHB one after the other; the
groups below a line come before the line itself; apart from that, document order -/
inductive SearchedBefore : ElementAddr → ElementAddr → Prop
  | line (n m p q i j i' j') : n < m → SearchedBefore ⟨n :: p, i, j⟩ ⟨m :: q, i', j'⟩
  | below (n k p i j i' j') : SearchedBefore ⟨n :: k :: p, i, j⟩ ⟨[n], i', j'⟩
  | group (n k p q i j i' j') : k :: p < q → SearchedBefore ⟨n :: k :: p, i, j⟩ ⟨n :: q, i', j'⟩
  | segment (g i j i' j') : i < i' → SearchedBefore ⟨g, i, j⟩ ⟨g, i', j'⟩
  | element (g i j j') : j < j' → SearchedBefore ⟨g, i, j⟩ ⟨g, i, j'⟩

/-- the object is a value pool, and the first one with its discriminator -/
def FirstWithDiscriminator (l : List SegmentGroup) (place : ElementAddr) (de : DataElement) : Prop :=
  elementAt? l place = some de ∧ de.isValuePool = true ∧
    ∀ place' de', elementAt? l place' = some de' → de'.isValuePool = true → de'.discriminator = de.discriminator →
      place' = place ∨ SearchedBefore place place'

end Verif
