import Verif.Proofs.DeepRaises
import Verif.Props.DeepSuccess
/-!
# Which exception `to_deep_ahb` raises (C108)

The premise on the expressions is no restriction: the constructor of `AhbLine` refuses other expressions (C88_line).
-/

namespace Verif

/-- **C108** `to_deep_ahb` raises exactly the exception of the location search, or that of the first run of lines that cannot be
converted. -/
theorem C108_to_deep_ahb_raises (reader : MigLookup) (posStr : AhbLocation → PyStr) (flat : FlatAhb) (sgh : Sgh)
    (hvalid : ∀ l ∈ flat.lines, NoneOr NotBlank l.ahbExpression) (e : Exc) :
    toDeepAhb reader posStr flat sgh = .error e ↔
      determineLocations sgh flat.lines = .error e ∨
      ∃ located, determineLocations sgh flat.lines = .ok located ∧ FirstFailure reader posStr (runsOf located) e := by
  unfold toDeepAhb
  cases hl : determineLocations sgh flat.lines with
  | error x => simp [bind, Except.bind]
  | ok located =>
    have hkey := deepFold_error_iff (reader := reader) (posStr := posStr) (runsOf located) (runs_sound hl hvalid) e
    simp only [bind, Except.bind, reduceCtorEq, false_or, Except.ok.injEq, exists_eq_left']
    rw [← hkey]
    have hrun : groupBy (fun x => removeQualifier x.2) located = runsOf located := rfl
    rw [hrun]
    cases hf : (runsOf located).foldlM (deepStep reader posStr) DeepState.init with
    | error x => simp
    | ok st => simp [pure, Except.pure]

/-- **C108 (lines after the failure)** lines that come after the first run that cannot be converted do not change the exception: two flat
AHBs whose runs agree up to and including that run raise the same. -/
theorem C108_later_lines (reader : MigLookup) (posStr : AhbLocation → PyStr) (flat flat' : FlatAhb) (sgh : Sgh)
    (hvalid : ∀ l ∈ flat.lines, NoneOr NotBlank l.ahbExpression) (hvalid' : ∀ l ∈ flat'.lines, NoneOr NotBlank l.ahbExpression)
    (located located' : List (AhbLine × AhbLocation)) (before : List Run) (r : Run) (after after' : List Run)
    (hl : determineLocations sgh flat.lines = .ok located) (hl' : determineLocations sgh flat'.lines = .ok located')
    (hr : runsOf located = before ++ r :: after) (hr' : runsOf located' = before ++ r :: after')
    (hb : Convertible reader posStr before) (hh : r.isHeading = false) (e : Exc) (he : RunRaises reader posStr before r e) :
    toDeepAhb reader posStr flat sgh = .error e ∧ toDeepAhb reader posStr flat' sgh = .error e :=
  ⟨(C108_to_deep_ahb_raises reader posStr flat sgh hvalid e).2 (.inr ⟨located, hl, before, r, after, hr, hb, hh, he⟩),
    (C108_to_deep_ahb_raises reader posStr flat' sgh hvalid' e).2 (.inr ⟨located', hl', before, r, after', hr', hb, hh, he⟩)⟩

/-! ## examples -/

/-- the first failure in an example with other lines, from the exception that is computed -/
theorem exFailure (lines : List AhbLine) (e : Exc) (hv : lines.all (fun l => isNotBlank l.ahbExpression || l.ahbExpression.isNone) = true)
    (h : exOutcome lines = .error e) (hloc : (determineLocations exSgh lines).toOption.isSome = true) :
    ∃ located, determineLocations exSgh lines = .ok located ∧ FirstFailure exReader exPosStr (runsOf located) e := by
  have hv' : ∀ l ∈ ({ exFlat with lines := lines } : FlatAhb).lines, NoneOr NotBlank l.ahbExpression := by
    intro l hl a ha
    have := List.all_eq_true.1 hv l hl
    rw [ha] at this
    simpa [notBlank_iff] using this
  have herr : toDeepAhb exReader exPosStr { exFlat with lines := lines } exSgh = .error e := by
    unfold exOutcome at h
    cases hx : toDeepAhb exReader exPosStr { exFlat with lines := lines } exSgh with
    | error x => rw [hx] at h; simp [Except.map] at h; rw [h]
    | ok v => rw [hx] at h; simp [Except.map] at h
  rcases (C108_to_deep_ahb_raises _ _ _ _ hv' e).1 herr with h' | h'
  · have h' : determineLocations exSgh lines = .error e := h'
    rw [h'] at hloc
    cases hloc
  · exact h'

/-- the hypotheses are met: a value pool entry without name comes first, a free text without expression second; the first one decides -/
example :
    let lines := (exLines.modify 5 fun l => { l with name := none }) ++ [{ segmentCode := some py!"UNT", dataElement := some py!"0062" },
      { segmentCode := some py!"UNT", dataElement := some py!"0062", ahbExpression := some py!"X" }]
    ∃ located, determineLocations exSgh lines = .ok located ∧ FirstFailure exReader exPosStr (runsOf located) .attributeError :=
  exFailure _ _ (by decide +kernel) (by decide +kernel) (by decide +kernel)

/-- a second entry whose qualifier is refused -/
example :
    let more := ((exLines.drop 5).take 1).map fun l => { l with valuePoolEntry := some py!"m s" }
    ∃ located, determineLocations exSgh (exLines.take 6 ++ more ++ exLines.drop 6) = .ok located ∧
      FirstFailure exReader exPosStr (runsOf located) .valueError :=
  exFailure _ _ (by decide +kernel) (by decide +kernel) (by decide +kernel)

/-- a segment without group -/
example :
    let lines := { segmentCode := some py!"UNA", ahbExpression := some py!"Muss", index := some 0 } :: exLines.drop 2
    ∃ located, determineLocations exSgh lines = .ok located ∧ FirstFailure exReader exPosStr (runsOf located) .unboundLocalError :=
  exFailure _ _ (by decide +kernel) (by decide +kernel) (by decide +kernel)

/-- a data element before the message root -/
example : ∃ located, determineLocations exSgh (exLines.drop 2) = .ok located ∧
    FirstFailure exReader exPosStr (runsOf located) .valueError :=
  exFailure _ _ (by decide +kernel) (by decide +kernel) (by decide +kernel)

/-- the last line of a run without segment code -/
example : ∃ located, determineLocations exSgh (exLines.take 2 ++ [{ index := none }] ++ exLines.drop 2) = .ok located ∧
    FirstFailure exReader exPosStr (runsOf located) .assertionError :=
  exFailure _ _ (by decide +kernel) (by decide +kernel) (by decide +kernel)

/-- a free text whose first line has no expression -/
example :
    let lines := exLines.take 2 ++ [{ segmentCode := some py!"UNH", dataElement := some py!"0062" },
      { segmentCode := some py!"UNH", dataElement := some py!"0062", ahbExpression := some py!"X" }]
    ∃ located, determineLocations exSgh lines = .ok located ∧ FirstFailure exReader exPosStr (runsOf located) .typeError :=
  exFailure _ _ (by decide +kernel) (by decide +kernel) (by decide +kernel)

end Verif
