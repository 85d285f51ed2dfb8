import Verif.Spec.DeepOps
import Verif.Model.DeepEdit
/-!
# Specification vocabulary for edits of a deep AHB
-/

namespace Verif

namespace SegmentGroup
mutual
/-- the data elements of a group, those of the groups below first -/
def bottomUp : SegmentGroup → List DataElement
  | mk _ _ _ s gs => bottomUpOpt gs ++ (s.getD []).flatMap Segment.dataElements
/-- no sub groups if the attribute is `None` -/
def bottomUpOpt : Option (List SegmentGroup) → List DataElement
  | none => []
  | some l => bottomUpList l
/-- groups one after the other -/
def bottomUpList : List SegmentGroup → List DataElement
  | [] => []
  | g :: l => bottomUp g ++ bottomUpList l
end
end SegmentGroup

/-- the data element without its entered input -/
def DataElement.forgetInput (de : DataElement) : DataElement := { de with enteredInput := none }

/-- two deep AHBs that agree in everything but the entered inputs -/
def DeepAhb.SameButInputs (a b : DeepAhb) : Prop :=
  a.ahbMeta = b.ahbMeta ∧
    SegmentGroup.mapDataElementsList DataElement.forgetInput a.lines = SegmentGroup.mapDataElementsList DataElement.forgetInput b.lines

/-- the data element after a replacement has been reported for it -/
def DataElement.withReplacement (de : DataElement) (r : InputReplacement) : DataElement :=
  if r.replacementFound = true then { de with enteredInput := r.inputReplacement } else de

/-- data elements that are visited one after the other, `before` and `after` the visits, with the state of the function at the beginning and
at the end: the function is called once for each data element with a discriminator, the reported replacements are applied at once, and an
exception ends the visits. -/
inductive Visited {σ : Type} (f : PyStr → σ → PyRes InputReplacement × σ) :
    (start : σ) → (before after : List DataElement) → (finish : σ) → Option Exc → Prop
  | done (s : σ) : Visited f s [] [] s none
  | skip {s s' : σ} {de : DataElement} {l l' : List DataElement} {e : Option Exc} (no : de.discriminator = none)
      (rest : Visited f s l l' s' e) : Visited f s (de :: l) (de :: l') s' e
  | replace {s s₁ s' : σ} {de : DataElement} {l l' : List DataElement} {e : Option Exc} {d : PyStr} {r : InputReplacement}
      (discriminator : de.discriminator = some d) (call : f d s = (.ok r, s₁)) (rest : Visited f s₁ l l' s' e) :
      Visited f s (de :: l) (de.withReplacement r :: l') s' e
  | raise {s s₁ : σ} {de : DataElement} {l : List DataElement} {d : PyStr} {x : Exc} (discriminator : de.discriminator = some d)
      (call : f d s = (.error x, s₁)) : Visited f s (de :: l) (de :: l) s₁ (some x)

/-- the replacement function without state -/
def stateless (f : PyStr → PyRes InputReplacement) (d : PyStr) (s : Unit) : PyRes InputReplacement × Unit := (f d, s)

/-- the data element after the visit of a function without state that does not raise for it -/
def DataElement.visited (f : PyStr → PyRes InputReplacement) (de : DataElement) : DataElement :=
  match de.discriminator with
  | none => de
  | some d => match f d with
    | .ok r => de.withReplacement r
    | .error _ => de

/-- the input of the last call that reports a replacement for the discriminator -/
def lastReplacement (d : PyStr) : List DeepEdit → Option (Option PyStr)
  | [] => none
  | .resetAhbLineIndex :: l => lastReplacement d l
  | .replaceInputs f :: l =>
    match lastReplacement d l with
    | some r => some r
    | none => if (f d).replacementFound = true then some (f d).inputReplacement else none

/-- the data element after the calls -/
def DataElement.edited (edits : List DeepEdit) (de : DataElement) : DataElement :=
  match de.discriminator.bind fun d => lastReplacement d edits with
  | some input => { de with enteredInput := input }
  | none => de

end Verif
