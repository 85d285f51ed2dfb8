import Verif.Proofs.Content
import Verif.Props.Csv
import Verif.Props.Deep
import Verif.Spec.Cli
import Verif.Props.Matching
/-!
# C78 The MAUS does not depend on the random GUIDs, C79 line numbers are only copied
-/

namespace Verif

/-- **C78** `to_deep_ahb` reads neither the GUIDs nor the condition texts nor the segment ids of the lines: two flat AHBs that differ
at most in them give the same deep AHB or the same exception. -/
theorem C78_deep_ahb (reader : MigLookup) (posStr : AhbLocation → PyStr) (sgh : Sgh) {flat flat' : FlatAhb} (h : flat.SameContent flat') :
    SameOutcome (fun r r' => r.2 = r'.2) (toDeepAhb reader posStr flat sgh) (toDeepAhb reader posStr flat' sgh) := by
  refine sameOutcome_of_map Prod.snd (fun _ _ h => h) ?_
  obtain ⟨m, l⟩ := flat
  obtain ⟨m', l'⟩ := flat'
  obtain ⟨hm, hl⟩ := h
  simp only at hm hl
  subst hm
  have h1 := toDeepAhb_numbers id reader posStr ⟨m, l⟩ sgh
  have h2 := toDeepAhb_numbers id reader posStr ⟨m, l'⟩ sgh
  simp only [deepAhb_renumber_id] at h1 h2
  rw [(map_eq_iff_forall₂ bare_id_eq_iff _ _).2 hl] at h1
  exact h1.symm.trans h2

/-- **C78** reading the same CSV file twice gives readers that differ at most in the GUIDs of the lines, or the same exception. -/
theorem C78_csv_reader (guid guid' : Nat → Fin (2 ^ 128)) (delimiter : Char) (content : Bytes) (p : Option PyStr) :
    SameOutcome CsvReader.SameButGuids (CsvReader.ofBytes guid delimiter content p) (CsvReader.ofBytes guid' delimiter content p) := by
  unfold CsvReader.ofBytes
  cases decodeUtf8 content with
  | error e => rfl
  | ok text =>
    simp only [bind, Except.bind]
    generalize csvRecords delimiter {} (fileLines text) = x
    obtain ⟨records, e⟩ := x
    cases e with
    | none => exact csvReader_same guid guid' records p
    | some e =>
      cases records with
      | nil => rfl
      | cons header records =>
        rw [CsvReader.ofRecords, CsvReader.ofRecords]
        cases choosePruefidentifikator p (some header) <;> rfl

/-- **C78** so do the flat AHBs of two runs. -/
theorem C78_flat_ahb (guid guid' : Nat → Fin (2 ^ 128)) (delimiter : Char) (content : Bytes) (p : Option PyStr) :
    SameOutcome FlatAhb.SameButGuids (CsvReader.ofBytes guid delimiter content p >>= CsvReader.toFlatAhb)
      (CsvReader.ofBytes guid' delimiter content p >>= CsvReader.toFlatAhb) :=
  (C78_csv_reader guid guid' delimiter content p).bind fun _ _ h => toFlatAhb_same h

/-- **C78** and the deep AHB is the same in every run: from the CSV file to the MAUS the result is a function of the files. -/
theorem C78_maus (guid guid' : Nat → Fin (2 ^ 128)) (delimiter : Char) (content : Bytes) (p : Option PyStr) (reader : MigLookup)
    (posStr : AhbLocation → PyStr) (sgh : Sgh) :
    SameOutcome (fun r r' => r.2 = r'.2)
      (CsvReader.ofBytes guid delimiter content p >>= CsvReader.toFlatAhb >>= fun flat => toDeepAhb reader posStr flat sgh)
      (CsvReader.ofBytes guid' delimiter content p >>= CsvReader.toFlatAhb >>= fun flat => toDeepAhb reader posStr flat sgh) :=
  (C78_flat_ahb guid guid' delimiter content p).bind fun _ _ h =>
    C78_deep_ahb reader posStr sgh ⟨h.1, h.2.imp fun _ _ h => SameButGuid.sameContent h⟩

/-- the example with GUIDs, condition texts and segment ids -/
def exFlatIds : FlatAhb :=
  { exFlat with lines := exFlat.lines.map fun l => { l with guid := some 42, conditions := some py!"[1] Wenn", segmentId := some py!"00001" } }

/-- the hypothesis of `C78_deep_ahb` holds for two different flat AHBs, and `to_deep_ahb` succeeds on both -/
example : exFlat ≠ exFlatIds ∧ exFlat.SameContent exFlatIds ∧ (toDeepAhb exReader exPosStr exFlatIds exSgh).toOption.isSome := by
  refine ⟨by decide +kernel, ⟨rfl, ?_⟩, by decide +kernel⟩
  rw [exFlatIds, List.forall₂_map_right_iff, List.forall₂_same]
  exact fun _ _ => ⟨rfl, rfl, rfl, rfl, rfl, rfl, rfl, rfl⟩

/-- two runs do give different lines -/
example : (CsvReader.new (fun n => Fin.ofNat _ n) exCsvRecords none).toOption.map CsvReader.rows ≠
    (CsvReader.new (fun n => Fin.ofNat _ (n + 1)) exCsvRecords none).toOption.map CsvReader.rows := by decide +kernel

/-- the index of a line is read: it cannot be added to the fields that may differ -/
example : (toDeepAhb exReader exPosStr exFlat exSgh).toOption.map Prod.snd ≠
    (toDeepAhb exReader exPosStr { exFlat with lines := exFlat.lines.map fun l => { l with index := none } } exSgh).toOption.map Prod.snd := by
  decide +kernel

/-! ## C79 -/

/-- **C79** the line numbers are only copied: if the lines of the flat AHB are renumbered (in any way, also to `None`), then the groups
and segments of the deep AHB are renumbered in the same way, and nothing else changes. -/
theorem C79_renumber (reader : MigLookup) (posStr : AhbLocation → PyStr) (sgh : Sgh) (flat : FlatAhb) (k : Option Int → Option Int) :
    SameOutcome (fun r r' => r'.2 = r.2.renumber k) (toDeepAhb reader posStr flat sgh) (toDeepAhb reader posStr (flat.renumber k) sgh) := by
  have h := toDeepAhb_numbers k reader posStr flat sgh
  have h2 := toDeepAhb_numbers id reader posStr (flat.renumber k) sgh
  have e : (flat.renumber k).lines.map (AhbLine.bare (.numbers id)) = flat.lines.map (AhbLine.bare (.numbers k)) := by
    rw [FlatAhb.renumber, List.map_map]
    rfl
  have e2 : { flat.renumber k with lines := (flat.renumber k).lines.map (AhbLine.bare (.numbers id)) } =
      { flat with lines := flat.lines.map (AhbLine.bare (.numbers k)) } := by rw [e]; rfl
  rw [e2, h] at h2
  simp only [deepAhb_renumber_id] at h2
  revert h2
  generalize toDeepAhb reader posStr flat sgh = x
  generalize toDeepAhb reader posStr (flat.renumber k) sgh = y
  intro h2
  cases x <;> cases y <;> simp only [Except.map, Except.error.injEq, Except.ok.injEq, reduceCtorEq] at h2
  · exact h2
  · exact h2.symm

/-- **C79** flat AHBs that differ at most in GUIDs, condition texts, segment ids and line numbers give deep AHBs that are equal up to line
numbers (which is what the command line tool compares), or the same exception. -/
theorem C79_equal_up_to_index (reader : MigLookup) (posStr : AhbLocation → PyStr) (sgh : Sgh) {flat flat' : FlatAhb}
    (h : flat.SameButNumbers flat') :
    SameOutcome (fun r r' => EqualUpToIndex r.2 r'.2) (toDeepAhb reader posStr flat sgh) (toDeepAhb reader posStr flat' sgh) := by
  refine sameOutcome_of_map (fun r => r.2.resetAhbLineIndex) (fun a b h => (C27_equal_up_to_index a.2 b.2).1 h) ?_
  obtain ⟨m, l⟩ := flat
  obtain ⟨m', l'⟩ := flat'
  obtain ⟨hm, hl⟩ := h
  simp only at hm hl
  subst hm
  have h1 := toDeepAhb_numbers (fun _ => none) reader posStr ⟨m, l⟩ sgh
  have h2 := toDeepAhb_numbers (fun _ => none) reader posStr ⟨m, l'⟩ sgh
  simp only [deepAhb_renumber_none] at h1 h2
  rw [(map_eq_iff_forall₂ bare_none_eq_iff _ _).2 hl] at h1
  exact h1.symm.trans h2

/-- the example with other line numbers: the deep AHB differs, but only in the numbers -/
example : (toDeepAhb exReader exPosStr exFlat exSgh).toOption.isSome ∧
    (toDeepAhb exReader exPosStr (exFlat.renumber fun i => i.map (· + 100)) exSgh).toOption.map Prod.snd ≠
      (toDeepAhb exReader exPosStr exFlat exSgh).toOption.map Prod.snd := by decide +kernel

example : exFlat.SameButNumbers (exFlat.renumber fun _ => none) ∧ exFlat ≠ exFlat.renumber fun _ => none := by
  refine ⟨⟨rfl, ?_⟩, by decide +kernel⟩
  rw [FlatAhb.renumber, List.forall₂_map_right_iff, List.forall₂_same]
  exact fun _ _ => ⟨rfl, rfl, rfl, rfl, rfl, rfl, rfl, rfl⟩

end Verif
