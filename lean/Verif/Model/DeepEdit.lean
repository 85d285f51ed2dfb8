import Verif.Model.Deep
/-!
# Model: editing a deep AHB in place
-/

namespace Verif

section
variable {σ : Type}

/-- `replacement_func` with a state of its own; it may raise. The exception ends `_replace_inputs_based_on_discriminator`, which works in
place: what is not visited yet stays as it is. This is the same as going on without calling the function and without replacing anything
(serves /repo/src/maus/models/anwendungshandbuch.py:573-576) -/
def untilRaise (f : PyStr → σ → PyRes InputReplacement × σ) (d : PyStr) : StateM (σ × Option Exc) InputReplacement :=
  fun (s, raised) =>
    match raised with
    | some e => (⟨false, none⟩, s, some e)
    | none =>
      match f d s with
      | (.ok r, s') => (r, s', none)
      | (.error e, s') => (⟨false, none⟩, s', some e)

/-- `DeepAnwendungshandbuch.replace_inputs_based_on_discriminator` with a function that may raise: the deep AHB that is left behind, the
state of the function and the exception, if any — anwendungshandbuch.py:506-511 -/
def DeepAhb.replaceInputsInPlace (f : PyStr → σ → PyRes InputReplacement × σ) (a : DeepAhb) (s : σ) : DeepAhb × σ × Option Exc :=
  (a.replaceInputsBasedOnDiscriminator (untilRaise f)).run (s, none)

end

/-- a call of a method that edits a deep AHB in place — anwendungshandbuch.py:446-452, 506-511. Simplification: here the replacement
function has no state and does not raise (see `replaceInputsInPlace` for those). -/
inductive DeepEdit where
  | resetAhbLineIndex
  | replaceInputs (f : PyStr → InputReplacement)

/-- the deep AHB after the call (serves anwendungshandbuch.py:446-452, 506-511) -/
def DeepEdit.apply (a : DeepAhb) : DeepEdit → DeepAhb
  | resetAhbLineIndex => a.resetAhbLineIndex
  | replaceInputs f => Id.run (a.replaceInputsBasedOnDiscriminator fun d => pure (f d))

/-- the deep AHB after some calls, one after the other (serves anwendungshandbuch.py:446-452, 506-511) -/
def DeepAhb.edit (a : DeepAhb) (edits : List DeepEdit) : DeepAhb := edits.foldl DeepEdit.apply a

end Verif
