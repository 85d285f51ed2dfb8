import Verif.Model.ReadWhile
/-!
# Specification: reading a MAUS file while it is written (C119)
-/

namespace Verif

/-- the reader can end with this result -/
def CanRead (old : Option Bytes) (new : Bytes) (result : Option Bytes) : Prop :=
  ∃ ops : List ReadWriteOp, ((ReadWriteState.start old).run new ops).reader = .done result

/-- the first `k` bytes of the old content, continued by the bytes behind position `k` of the first `m` bytes of the new content -/
def mixed (old new : Bytes) (k m : Nat) : Bytes := old.take k ++ (new.take m).drop k

end Verif
