import Verif.Model.Edifact
/-!
# Model of the containers of `maus.models.anwendungshandbuch`
-/

namespace Verif

/-- `_VERSION` — /repo/src/maus/models/anwendungshandbuch.py:27 -/
def mausVersion : PyStr := py!"0.3.0"

/-- `AhbMetaInformation` — anwendungshandbuch.py:163-204 -/
structure AhbMetaInformation where
  pruefidentifikator : PyStr
  mausVersion : Option PyStr := some mausVersion
  description : Option PyStr := none
  direction : Option PyStr := none
  deriving DecidableEq

/-- `AhbMetaInformation(...)`: `description` and `direction` are `None` or not blank — anwendungshandbuch.py:163-204 -/
def AhbMetaInformation.new (m : AhbMetaInformation) : PyRes AhbMetaInformation :=
  if m.description.isSome && !isNotBlank m.description then .error .valueError
  else if m.direction.isSome && !isNotBlank m.direction then .error .valueError
  else .ok m

/-- `FlatAnwendungshandbuch` — anwendungshandbuch.py:302-328 (validators: `Model/Flat.lean`) -/
structure FlatAhb where
  ahbMeta : AhbMetaInformation
  lines : List AhbLine
  deriving DecidableEq

/-- `DeepAnwendungshandbuch` — anwendungshandbuch.py:430-444 (methods: `Model/Deep.lean`) -/
structure DeepAhb where
  ahbMeta : AhbMetaInformation
  lines : List SegmentGroup
  deriving DecidableEq

end Verif
