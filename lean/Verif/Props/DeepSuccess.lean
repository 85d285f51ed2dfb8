import Verif.Proofs.DeepSuccess
/-!
# When `to_deep_ahb` succeeds (C89)

The premise on the expressions is no restriction: the constructor of `AhbLine` refuses other expressions (C88_line).
-/

namespace Verif

/-- **C89** `to_deep_ahb` returns exactly if: the locations can be determined; every run of lines with a segment code is fine; the first
thing that is created is the message root; every further group can be inserted where its location says. -/
theorem C89_to_deep_ahb_returns (reader : MigLookup) (posStr : AhbLocation → PyStr) (flat : FlatAhb) (sgh : Sgh)
    (hvalid : ∀ l ∈ flat.lines, NoneOr NotBlank l.ahbExpression) :
    (∃ res, toDeepAhb reader posStr flat sgh = .ok res) ↔
      ∃ located, determineLocations sgh flat.lines = .ok located ∧
        (∀ r ∈ runsOf located, r.isHeading = false → r.Fine reader) ∧
        StartsWithRoot (createdItems reader posStr [] (runsOf located)) ∧
        OpeningsFit 1 (openings reader [] none (runsOf located)).tail := by
  have key : ∀ located, determineLocations sgh flat.lines = .ok located →
      ((∃ st, (runsOf located).foldlM (deepStep reader posStr) DeepState.init = .ok st) ↔
        (∀ r ∈ runsOf located, r.isHeading = false → r.Fine reader) ∧
        StartsWithRoot (createdItems reader posStr [] (runsOf located)) ∧
        OpeningsFit 1 (openings reader [] none (runsOf located)).tail) :=
    fun located hl => deepFold_succeeds_iff _ (runs_sound hl hvalid) DeepState.init_inv (fun x hx => by cases hx)
  constructor
  · rintro ⟨res, hres⟩
    obtain ⟨located, st, hl, hst, _⟩ := toDeepAhb_ok hres
    exact ⟨located, hl, (key located hl).1 ⟨st, hst⟩⟩
  · rintro ⟨located, hl, hrest⟩
    obtain ⟨st, hst⟩ := (key located hl).2 hrest
    have hst' : (groupBy (fun x => removeQualifier x.2) located).foldlM (deepStep reader posStr) DeepState.init = .ok st := hst
    exact ⟨_, by simp only [toDeepAhb, hl, hst', bind, Except.bind, pure, Except.pure]; rfl⟩

/-- **C89 (sufficient condition)** if groups are opened one layer at a time, the order of the groups is no obstacle -/
theorem C89_one_layer_at_a_time (reader : MigLookup) (posStr : AhbLocation → PyStr) (flat : FlatAhb) (sgh : Sgh)
    (hvalid : ∀ l ∈ flat.lines, NoneOr NotBlank l.ahbExpression) (located : List (AhbLine × AhbLocation))
    (hl : determineLocations sgh flat.lines = .ok located)
    (hfine : ∀ r ∈ runsOf located, r.isHeading = false → r.Fine reader)
    (hroot : StartsWithRoot (createdItems reader posStr [] (runsOf located)))
    (hone : OneLayerAtATime (openings reader [] none (runsOf located))) :
    ∃ res, toDeepAhb reader posStr flat sgh = .ok res := by
  refine (C89_to_deep_ahb_returns reader posStr flat sgh hvalid).2 ⟨located, hl, hfine, hroot, ?_⟩
  cases ho : openings reader [] none (runsOf located) with
  | nil => trivial
  | cons o os =>
    rw [ho] at hone
    have := hone.1 o rfl
    rw [List.tail_cons, ← this]
    exact OneLayerAtATime.fit o os hone.2

/-- **C89 (exceptions)** if `to_deep_ahb` raises, it raises a ValueError, a TypeError, an IndexError, an AttributeError, an
AssertionError, an UnboundLocalError, or what the MIG reader has raised; IndexErrors come from the locations only. -/
theorem C89_exceptions (reader : MigLookup) (posStr : AhbLocation → PyStr) (flat : FlatAhb) (sgh : Sgh) (e : Exc)
    (h : toDeepAhb reader posStr flat sgh = .error e) :
    (determineLocations sgh flat.lines = .error e ∧
      (e = .valueError ∨ e = .typeError ∨ e = .indexError ∨ e = .attributeError)) ∨
    (∃ located, determineLocations sgh flat.lines = .ok located) ∧
      (e = .valueError ∨ e = .typeError ∨ e = .attributeError ∨ e = .assertionError ∨ e = .unboundLocalError ∨
        ∃ l, reader l = .error e) := by
  unfold toDeepAhb at h
  simp only [bind, Except.bind] at h
  split at h
  · rename_i e' he
    cases h
    exact .inl ⟨he, C12_locations_errors _ _ _ he⟩
  · rename_i located hl
    refine .inr ⟨⟨located, hl⟩, ?_⟩
    split at h
    · rename_i e' he
      cases h
      exact raises_deepFold _ _ _ he
    · cases h

/-! ## examples -/

/-- the outcome for the example with other lines -/
def exOutcome (lines : List AhbLine) : Except Exc Unit := (toDeepAhb exReader exPosStr { exFlat with lines := lines } exSgh).map fun _ => ()

/-- the premise of `C89_to_deep_ahb_returns`, and both sides hold for the example -/
theorem exLines_valid : ∀ l ∈ exFlat.lines, NoneOr NotBlank l.ahbExpression := by
  have h : ∀ l ∈ exFlat.lines, isNotBlank l.ahbExpression = true := by decide
  intro l hl a ha
  rw [← notBlank_iff, ← ha]
  exact h l hl

example : ∃ located, determineLocations exSgh exFlat.lines = .ok located ∧
    (∀ r ∈ runsOf located, r.isHeading = false → r.Fine exReader) ∧
    StartsWithRoot (createdItems exReader exPosStr [] (runsOf located)) ∧
    OpeningsFit 1 (openings exReader [] none (runsOf located)).tail := by
  refine (C89_to_deep_ahb_returns exReader exPosStr exFlat exSgh exLines_valid).1 ?_
  have : (toDeepAhb exReader exPosStr exFlat exSgh).toOption.isSome = true := by decide +kernel
  cases h : toDeepAhb exReader exPosStr exFlat exSgh with
  | error e => rw [h] at this; cases this
  | ok r => exact ⟨r, rfl⟩

/-- the fourth condition for the example, computed: every group sits in depth 2 -/
example :
    let r : AhbLocationLayer := ⟨none, py!"UNH", some py!"MS"⟩
    let ms : AhbLocationLayer := ⟨some py!"SG2", py!"NAD", some py!"MS"⟩
    let mr : AhbLocationLayer := ⟨some py!"SG2", py!"NAD", some py!"MR"⟩
    depthAfter? 1 [r] [r, ms] = some 2 ∧ depthAfter? 2 [r, ms] [r, mr] = some 2 ∧
    -- two levels down at once, from inside the root: the levels are not counted
    depthAfter? 1 [r] [r, ms, mr] = some 2 ∧
    -- further up than there are levels
    depthAfter? 1 [r, ms, mr] [r, mr] = none ∧
    -- another root
    depthAfter? 1 [r] [ms] = none ∧
    -- two levels up, one down
    depthAfter? 3 [r, ms, mr] [r, mr] = some 2 ∧
    -- one up and three down
    depthAfter? 2 [r, ms] [r, mr, ms, mr] = none := by decide

/-- each condition fails in some example: nothing may be created before the message root … -/
example : exOutcome (exLines.drop 2) = .error .valueError := by decide +kernel

/-- … a segment without group: the name of the list is not bound … -/
example : exOutcome ({ segmentCode := some py!"UNA", ahbExpression := some py!"Muss", index := some 0 } :: exLines.drop 2) =
    .error .unboundLocalError := by decide +kernel

/-- … a value pool entry without name … -/
example : exOutcome (exLines.modify 5 fun l => { l with name := none }) = .error .attributeError := by decide +kernel

/-- … a qualifier that is refused (a blank name is accepted) … -/
example :
    let more := ((exLines.drop 5).take 1).map fun l => { l with valuePoolEntry := some py!"m s" }
    exOutcome (exLines.modify 5 fun l => { l with name := some py!" " }) = .ok () ∧
    (determineLocations exSgh (exLines.take 6 ++ more ++ exLines.drop 6)).toOption.isSome = true ∧
    exOutcome (exLines.take 6 ++ more ++ exLines.drop 6) = .error .valueError := by decide +kernel

/-- … a free text whose first line has no expression although a later line has one … -/
example : exOutcome (exLines.take 2 ++ [{ segmentCode := some py!"UNH", dataElement := some py!"0062" },
      { segmentCode := some py!"UNH", dataElement := some py!"0062", ahbExpression := some py!"X" }]) = .error .typeError := by
  decide +kernel

/-- … the last line of a run without segment code -/
example : exOutcome (exLines.take 2 ++ [{ index := none }] ++ exLines.drop 2) = .error .assertionError := by decide +kernel

end Verif
