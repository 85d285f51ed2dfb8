import Verif.Proofs.DeepTree
/-!
# The result of `to_deep_ahb`, completely (C90)
-/

namespace Verif

/-- **C90 (the description is complete)** two lists of groups whose attributes are lists are equal if they read the same from top to
bottom and their groups have the same depths. -/
theorem C90_document_order_and_depths (l m : List SegmentGroup) (hl : HasLists l) (hm : HasLists m)
    (hdoc : documentOrder l = documentOrder m) (hdep : groupDepths l = groupDepths m) : l = m :=
  documentOrder_unique hl hm hdoc hdep

theorem toDeepAhb_describes {reader : MigLookup} {posStr : AhbLocation → PyStr} {flat : FlatAhb} {sgh : Sgh}
    (hvalid : ∀ l ∈ flat.lines, NoneOr NotBlank l.ahbExpression) {flat' : FlatAhb} {deep : DeepAhb}
    (h : toDeepAhb reader posStr flat sgh = .ok (flat', deep)) :
    ∃ located, determineLocations sgh flat.lines = .ok located ∧ HasLists deep.lines ∧
      documentOrder deep.lines = createdItems reader posStr [] (runsOf located) ∧
      groupDepths deep.lines = openingDepths (openings reader [] none (runsOf located)) := by
  obtain ⟨located, hl, hdoc, _, hw, _⟩ := toDeepAhb_facts h
  obtain ⟨located', st, hl', hst, hres⟩ := toDeepAhb_ok h
  rw [hl] at hl'
  cases hl'
  obtain ⟨located', hl', _, _, hfit⟩ := (C89_to_deep_ahb_returns reader posStr flat sgh hvalid).1 ⟨_, h⟩
  rw [hl] at hl'
  cases hl'
  refine ⟨located, hl, ?_, hdoc, ?_⟩
  · cases hres
    exact deepFold_lists _ hasLists_nil hst
  · unfold groupDepths
    generalize groupAddresses deep.lines = as at hw
    generalize openings reader [] none (runsOf located) = os at hw hfit
    cases os with
    | nil =>
      cases as with
      | nil => rfl
      | cons a as => exact hw.elim
    | cons o os =>
      cases as with
      | nil => exact hw.elim
      | cons a as =>
        obtain ⟨⟨q, n, rfl, hnav⟩, hw'⟩ := hw
        rcases hnav with ⟨_, rfl⟩ | ⟨_, _, _, hcn, _⟩
        · simp only [List.nil_append, List.map_cons, List.length_singleton, openingDepths, List.cons.injEq, true_and]
          exact hw'.depths hfit
        · cases hcn

/-- **C90** `to_deep_ahb` returns `deep` (and leaves `flat'` behind) exactly if the conditions of C89 hold, the metadata are those of the
flat AHB with the version of the package, and `deep` is the one tree that reads from top to bottom as created run by run, with
each group at the depth given by the locations. -/
theorem C90_to_deep_ahb (reader : MigLookup) (posStr : AhbLocation → PyStr) (flat flat' : FlatAhb) (sgh : Sgh) (deep : DeepAhb)
    (hvalid : ∀ l ∈ flat.lines, NoneOr NotBlank l.ahbExpression) :
    toDeepAhb reader posStr flat sgh = .ok (flat', deep) ↔
      ∃ located, determineLocations sgh flat.lines = .ok located ∧
        (∀ r ∈ runsOf located, r.isHeading = false → r.Fine reader) ∧
        StartsWithRoot (createdItems reader posStr [] (runsOf located)) ∧
        OpeningsFit 1 (openings reader [] none (runsOf located)).tail ∧
        deep.ahbMeta = { flat.ahbMeta with mausVersion := some mausVersion } ∧ flat' = { flat with ahbMeta := deep.ahbMeta } ∧
        HasLists deep.lines ∧
        documentOrder deep.lines = createdItems reader posStr [] (runsOf located) ∧
        groupDepths deep.lines = openingDepths (openings reader [] none (runsOf located)) := by
  constructor
  · intro h
    obtain ⟨located, hl, h1, h2, h3⟩ := (C89_to_deep_ahb_returns reader posStr flat sgh hvalid).1 ⟨_, h⟩
    obtain ⟨located', hl', h4, h5, h6⟩ := toDeepAhb_describes hvalid h
    rw [hl] at hl'
    cases hl'
    obtain ⟨_, st, _, _, hres⟩ := toDeepAhb_ok h
    cases hres
    exact ⟨located, hl, h1, h2, h3, rfl, rfl, h4, h5, h6⟩
  · rintro ⟨located, hl, h1, h2, h3, hm, hf, h4, h5, h6⟩
    obtain ⟨⟨flat2, deep2⟩, hres⟩ := (C89_to_deep_ahb_returns reader posStr flat sgh hvalid).2 ⟨located, hl, h1, h2, h3⟩
    obtain ⟨located', hl', g4, g5, g6⟩ := toDeepAhb_describes hvalid hres
    rw [hl] at hl'
    cases hl'
    have hlines := documentOrder_unique h4 g4 (h5.trans g5.symm) (h6.trans g6.symm)
    obtain ⟨_, st, _, _, hr⟩ := toDeepAhb_ok hres
    cases hr
    rw [hres]
    obtain ⟨dm, dl⟩ := deep
    simp only at hlines hm hf
    subst hlines hm hf
    rfl

/-- **C16 (exact)** the number of outermost groups is the number of openings at depth 1; in particular there is at most one root exactly
if no group is opened at depth 1 behind the first one. -/
theorem C16_roots_exact (reader : MigLookup) (posStr : AhbLocation → PyStr) (flat flat' : FlatAhb) (sgh : Sgh) (deep : DeepAhb)
    (hvalid : ∀ l ∈ flat.lines, NoneOr NotBlank l.ahbExpression)
    (h : toDeepAhb reader posStr flat sgh = .ok (flat', deep)) :
    ∃ located, determineLocations sgh flat.lines = .ok located ∧
      deep.lines.length = (openingDepths (openings reader [] none (runsOf located))).count 1 ∧
      (deep.lines.length ≤ 1 ↔ 1 ∉ depthsAfter 1 (openings reader [] none (runsOf located)).tail) := by
  obtain ⟨located, hl, _, _, h6⟩ := toDeepAhb_describes hvalid h
  have hc := (count_depthsBelow 0 deep.lines).1
  rw [← groupDepths_eq, h6] at hc
  refine ⟨located, hl, hc.symm, ?_⟩
  rw [← hc]
  cases openings reader [] none (runsOf located) with
  | nil => simp [openingDepths, depthsAfter]
  | cons o os =>
    simp only [openingDepths, List.tail_cons, Nat.zero_add, List.count_cons_self]
    rw [← List.count_eq_zero]
    omega

/-! ## examples -/

/-- the depths in the example: the root and three groups below -/
example : (determineLocations exSgh exLines).map (fun located => openingDepths (openings exReader [] none (runsOf located))) =
    .ok [1, 2, 2, 2] := by decide +kernel

/-- two roots: the group SG2 leaves the skipped group SG4 for the depth 1 (`C16_two_roots`) -/
example : (determineLocations exSgh exSkippingLines).map (fun located => openingDepths (openings exReader [] none (runsOf located))) =
    .ok [1, 2, 1] := by decide +kernel

/-- all conditions of `C90_to_deep_ahb` are met by the example -/
example : ∃ (flat' : FlatAhb) (deep : DeepAhb) (located : _), determineLocations exSgh exFlat.lines = .ok located ∧
    HasLists deep.lines ∧ flat' = { exFlat with ahbMeta := deep.ahbMeta } ∧
    documentOrder deep.lines = createdItems exReader exPosStr [] (runsOf located) ∧
    groupDepths deep.lines = openingDepths (openings exReader [] none (runsOf located)) := by
  have : (toDeepAhb exReader exPosStr exFlat exSgh).toOption.isSome = true := by decide +kernel
  cases h : toDeepAhb exReader exPosStr exFlat exSgh with
  | error e => rw [h] at this; cases this
  | ok r =>
    obtain ⟨located, h1, _, _, _, _, h2, h3, h4, h5⟩ := (C90_to_deep_ahb exReader exPosStr exFlat r.1 exSgh r.2 exLines_valid).1 h
    exact ⟨r.1, r.2, located, h1, h3, h2, h4, h5⟩

/-- without the premise `HasLists` two different trees may read the same: `None` and the empty list -/
example : documentOrder [.mk none py!"Muss" none none none] = documentOrder [.mk none py!"Muss" none (some []) (some [])] ∧
    groupDepths [.mk none py!"Muss" none none none] = groupDepths [.mk none py!"Muss" none (some []) (some [])] := by decide

/-- without the depths, too: a group below another group or beside it -/
example :
    let g : SegmentGroup := .mk none py!"Muss" none (some []) (some [])
    let l : List SegmentGroup := [.mk none py!"Muss" none (some []) (some [g])]
    documentOrder l = documentOrder [g, g] ∧ groupDepths l = [1, 2] ∧ groupDepths [g, g] = [1, 1] := by decide

end Verif
