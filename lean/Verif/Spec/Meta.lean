import Verif.Proofs.White
import Verif.Model.Meta
/-!
# Specification of division names and Prüfidentifikatoren
-/

namespace Verif

/-- somewhere in `s`, `word` is written, in capital or small letters (`Char.toLower` only knows the letters A to Z) -/
def Spells (word s : PyStr) : Prop := ∃ before w after, s = before ++ w ++ after ∧ w.map Char.toLower = word

/-- a digit from 1 to 9 followed by four decimal digits (of any script, as in Python's `\d`) -/
def IsPruefi (s : PyStr) : Prop :=
  ∃ c a1 a2 a3 a4, s = [c, a1, a2, a3, a4] ∧ c ∈ py!"123456789" ∧ ∀ a ∈ [a1, a2, a3, a4], isDigit a = true

/-- `w` with white space around it -/
def Padded (w s : PyStr) : Prop :=
  ∃ before after, s = before ++ w ++ after ∧ (∀ c ∈ before, c ∈ whiteSpace) ∧ ∀ c ∈ after, c ∈ whiteSpace

/-- why metadata cannot be constructed, in the order in which the reasons count: the format has to be looked up and this fails, the
Prüfidentifikator is no text or not of the right form, its format is unknown or another one, the format is not a format, the
version is not a version -/
inductive MetaFailure {F V : Type} (lookup : Arg PyStr → PyRes F) (pruefi : Arg PyStr) (format : Option (Arg F)) (version : Arg V) :
    Exc → Prop
  | noDefault {e : Exc} (hf : format = none) (h : lookup pruefi = .error e) : MetaFailure lookup pruefi format version e
  | noText {eq : PyStr → Bool} (hf : format = none → ∃ f, lookup pruefi = .ok f) (h : pruefi = .other eq) :
      MetaFailure lookup pruefi format version .typeError
  | noPruefi {p : PyStr} (hf : format = none → ∃ f, lookup pruefi = .ok f) (hp : pruefi = .inst p) (h : ¬ IsPruefi p) :
      MetaFailure lookup pruefi format version .valueError
  | unknown {p : PyStr} {g : Arg F} {e : Exc} (hf : format = some g) (hp : pruefi = .inst p) (h : IsPruefi p)
      (hl : lookup pruefi = .error e) : MetaFailure lookup pruefi format version e
  | otherFormat {p : PyStr} {f f' : F} (hf : format = some (.inst f')) (hp : pruefi = .inst p) (h : IsPruefi p)
      (hl : lookup pruefi = .ok f) (hne : f' ≠ f) : MetaFailure lookup pruefi format version .valueError
  | foreignFormat {p : PyStr} {f : F} {eq : F → Bool} (hf : format = some (.other eq)) (hp : pruefi = .inst p) (h : IsPruefi p)
      (hl : lookup pruefi = .ok f) :
      MetaFailure lookup pruefi format version (if eq f = true then .typeError else .valueError)
  | noVersion {p : PyStr} {f : F} {eq : V → Bool} (hf : format = none ∨ format = some (.inst f)) (hp : pruefi = .inst p)
      (h : IsPruefi p) (hl : lookup pruefi = .ok f) (hv : version = .other eq) :
      MetaFailure lookup pruefi format version .typeError

end Verif
