import Verif.Props.JsonText
import Verif.Props.Matching
/-!
# C98 The conversion of a flat into a deep AHB can be repeated
-/

namespace Verif

/-- **C98** the version noted in the flat AHB does not influence the conversion: neither the result nor an exception. -/
theorem C98_version_irrelevant (reader : MigLookup) (posStr : AhbLocation → PyStr) (flat : FlatAhb) (sgh : Sgh) (version : Option PyStr) :
    toDeepAhb reader posStr ⟨{ flat.ahbMeta with mausVersion := version }, flat.lines⟩ sgh = toDeepAhb reader posStr flat sgh := rfl

/-- **C98** `to_deep_ahb` writes the version into the metadata of the flat AHB it is given; the second call with the same flat AHB returns an
equal deep AHB and leaves the flat AHB as it is. -/
theorem C98_second_call (reader : MigLookup) (posStr : AhbLocation → PyStr) (flat flat' : FlatAhb) (sgh : Sgh) (deep : DeepAhb)
    (h : toDeepAhb reader posStr flat sgh = .ok (flat', deep)) : toDeepAhb reader posStr flat' sgh = .ok (flat', deep) := by
  obtain ⟨_, _, _, _, hres⟩ := toDeepAhb_ok h
  have hf : flat' = ⟨{ flat.ahbMeta with mausVersion := some mausVersion }, flat.lines⟩ := by cases hres; rfl
  rw [← h, hf]
  rfl

/-- **C98** and so does the conversion of the flat AHB that has been stored as JSON (in any style) before or after the first conversion and
loaded again; the hierarchy may be stored and loaded as well. -/
theorem C98_stored (reader : MigLookup) (posStr : AhbLocation → PyStr) (flat flat' : FlatAhb) (sgh : Sgh) (deep : DeepAhb)
    (hc : flat.Constructed) (h : toDeepAhb reader posStr flat sgh = .ok (flat', deep)) (st st' : JsonStyle) (stored : FlatAhb)
    (hs : stored = flat ∨ stored = flat') :
    ∃ loaded sgh', (jsonLoads (jsonDumps st stored.dump)).bind FlatAhb.load = .ok loaded ∧
      (jsonLoads (jsonDumps st' sgh.dump)).bind Sgh.load = .ok sgh' ∧
      toDeepAhb reader posStr loaded sgh' = .ok (flat', deep) := by
  have hc' : stored.Constructed := by
    rcases hs with rfl | rfl
    · exact hc
    · obtain ⟨_, _, _, _, hres⟩ := toDeepAhb_ok h
      cases hres
      obtain ⟨h1, h2, h3⟩ := hc
      refine ⟨?_, ?_, h3⟩
      · unfold FlatAhb.new at h1 ⊢
        cases hl : FlatAhb.checkLines flat.lines with
        | error e => simp [hl, bind, Except.bind] at h1
        | ok u => simp only [bind, Except.bind]; rfl
      · unfold AhbMetaInformation.new at h2 ⊢
        repeat' split at h2
        · cases h2
        · cases h2
        · rename_i h4 h5
          simp only [h4, h5]
          rfl
  refine ⟨stored, sgh, C66_flat_text_round_trip st stored hc', C66_sgh_text_round_trip st' sgh, ?_⟩
  rcases hs with rfl | rfl
  · exact h
  · exact C98_second_call reader posStr flat stored sgh deep h

/-! ## example -/

/-- the first conversion changes the flat AHB -/
example : ∃ flat' deep, toDeepAhb exReader exPosStr exFlat exSgh = .ok (flat', deep) ∧ flat' ≠ exFlat ∧ deep.lines ≠ [] ∧ exFlat.Constructed := by
  have h : (toDeepAhb exReader exPosStr exFlat exSgh).toOption.all (fun r => decide (r.1 ≠ exFlat ∧ r.2.lines ≠ [])) = true ∧
    (toDeepAhb exReader exPosStr exFlat exSgh).toOption.isSome = true := by decide +kernel
  cases hr : toDeepAhb exReader exPosStr exFlat exSgh with
  | error e => rw [hr] at h; exact absurd h.2 (by simp [Except.toOption])
  | ok r =>
    rw [hr] at h
    obtain ⟨h1, h2⟩ : r.1 ≠ exFlat ∧ r.2.lines ≠ [] := by simpa [Except.toOption] using h.1
    refine ⟨r.1, r.2, rfl, h1, h2, by decide +kernel, by decide +kernel, ?_⟩
    have hl : ∀ l ∈ exFlat.lines, AhbLine.new l = .ok l ∧ l.guid = none := by decide +kernel
    intro l hl'
    obtain ⟨h3, h4⟩ := hl l hl'
    exact ⟨h3, fun g hg => by rw [h4] at hg; cases hg⟩

end Verif
