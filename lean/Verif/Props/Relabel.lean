import Verif.Proofs.Relabel
import Verif.Props.Content
/-!
# C93 AHB expressions, names and section names are only copied
-/

namespace Verif

/-- **C93** the texts are only copied: if line numbers, expressions, names and section names of the flat AHB are replaced by others (where
empty expressions remain empty, others do not become empty, and blanks at the ends remain blanks at the ends), then those of the deep AHB
are replaced in the same way, and nothing else changes. -/
theorem C93_copied (reader : MigLookup) (posStr : AhbLocation → PyStr) (sgh : Sgh) (flat : FlatAhb) {ρ : Relabelling} (hρ : ρ.Fair) :
    SameOutcome (fun r r' => r'.2 = r.2.relabel ρ) (toDeepAhb reader posStr flat sgh) (toDeepAhb reader posStr (flat.relabel ρ) sgh) := by
  have h := toDeepAhb_bare hρ reader posStr flat sgh
  have h2 := toDeepAhb_numbers id reader posStr (flat.relabel ρ) sgh
  have e : (flat.relabel ρ).lines.map (AhbLine.bare (.numbers id)) = flat.lines.map (AhbLine.bare ρ) := by
    rw [FlatAhb.relabel, List.map_map]
    refine List.map_congr_left fun l _ => ?_
    cases l
    simp [AhbLine.bare, AhbLine.relabel, Relabelling.numbers]
  have e2 : { flat.relabel ρ with lines := (flat.relabel ρ).lines.map (AhbLine.bare (.numbers id)) } =
      { flat with lines := flat.lines.map (AhbLine.bare ρ) } := by rw [e]; rfl
  rw [e2, h] at h2
  simp only [deepAhb_renumber_id] at h2
  revert h2
  generalize toDeepAhb reader posStr flat sgh = x
  generalize toDeepAhb reader posStr (flat.relabel ρ) sgh = y
  intro h2
  cases x <;> cases y <;> simp only [Except.map, Except.error.injEq, Except.ok.injEq, reduceCtorEq] at h2
  · exact h2
  · exact h2.symm

/-- **C93** the structure does not depend on what the texts say: flat AHBs whose lines stand at the same places, with expressions and
names in the same lines, give deep AHBs of the same structure or the same exception. -/
theorem C93_structure (reader : MigLookup) (posStr : AhbLocation → PyStr) (sgh : Sgh) {flat flat' : FlatAhb}
    (hm : flat.ahbMeta = flat'.ahbMeta) (h : List.Forall₂ AhbLine.SamePlace flat.lines flat'.lines) :
    SameOutcome (fun r r' => DeepAhb.SameStructure r.2 r'.2) (toDeepAhb reader posStr flat sgh) (toDeepAhb reader posStr flat' sgh) := by
  refine sameOutcome_of_map (fun r : FlatAhb × DeepAhb => r.2.relabel .erase) (fun _ _ h => h) ?_
  obtain ⟨m, l⟩ := flat
  obtain ⟨m', l'⟩ := flat'
  simp only at hm h
  subst hm
  have e : l.map (AhbLine.bare .erase) = l'.map (AhbLine.bare .erase) := by
    induction h with
    | nil => rfl
    | cons h _ ih => rw [List.map_cons, List.map_cons, ih, samePlace_erase h]
  have h1 := toDeepAhb_bare erase_fair reader posStr ⟨m, l⟩ sgh
  have h2 := toDeepAhb_bare erase_fair reader posStr ⟨m, l'⟩ sgh
  simp only at h1 h2
  rw [e] at h1
  exact h1.symm.trans h2

/-- **C93** the location of a line is determined by the columns segment group, segment, data element and value pool entry of the lines;
everything else (also whether there is an expression or a name) does not matter. -/
theorem C93_locations (sgh : Sgh) {lines lines' : List AhbLine}
    (h : List.Forall₂ (fun a b : AhbLine => a.segmentGroupKey = b.segmentGroupKey ∧ a.segmentCode = b.segmentCode ∧
      a.dataElement = b.dataElement ∧ a.valuePoolEntry = b.valuePoolEntry) lines lines') :
    SameOutcome (fun r r' => r.map Prod.snd = r'.map Prod.snd) (determineLocations sgh lines) (determineLocations sgh lines') := by
  refine sameOutcome_of_map (fun r => r.map (bareFst AhbLine.place)) (fun a b h => ?_) ?_
  · have := congrArg (List.map Prod.snd) h
    rwa [snd_bareFst, snd_bareFst] at this
  · have e : lines.map AhbLine.place = lines'.map AhbLine.place := by
      induction h with
      | nil => rfl
      | cons h _ ih =>
        rw [List.map_cons, List.map_cons, ih, AhbLine.place, AhbLine.place, h.1, h.2.1, h.2.2.1, h.2.2.2]
    have h1 := determineLocations_bare place_keepsPlace sgh lines
    have h2 := determineLocations_bare place_keepsPlace sgh lines'
    rw [e] at h1
    exact h1.symm.trans h2

/-- every character that is not white space becomes an `A`; line numbers and section names are removed -/
def exRelabelling : Relabelling where
  index _ := none
  expression e := e.map fun c => if isSpace c then c else 'A'
  name n := n.map fun c => if isSpace c then c else 'A'
  sectionName _ := none

/-- the hypothesis of `C93_copied` holds for it -/
theorem exRelabelling_fair : exRelabelling.Fair :=
  ⟨fun e => by simp [exRelabelling], fun s => by rw [trim_eq, trim_eq]; exact strip_map (by intro c; split <;> simp_all [isSpace]) s,
    fun s => by rw [trim_eq, trim_eq]; exact strip_map (by intro c; split <;> simp_all [isSpace]) s⟩

/-- it changes the deep AHB -/
example : (toDeepAhb exReader exPosStr (exFlat.relabel exRelabelling) exSgh).toOption.map Prod.snd ≠
      (toDeepAhb exReader exPosStr exFlat exSgh).toOption.map Prod.snd := by decide +kernel

/-- the hypothesis of `C93_structure` holds for the example and the one with other texts -/
example : exFlat ≠ exFlat.relabel exRelabelling ∧ List.Forall₂ AhbLine.SamePlace exFlat.lines (exFlat.relabel exRelabelling).lines := by
  refine ⟨by decide +kernel, ?_⟩
  rw [FlatAhb.relabel, List.forall₂_map_right_iff, List.forall₂_same]
  intro l hl
  refine ⟨rfl, rfl, rfl, rfl, ?_, (Option.isSome_map ..).symm⟩
  have : ∀ l ∈ exFlat.lines, l.ahbExpression = none ∨ isNotBlank l.ahbExpression = true := by decide +kernel
  cases he : l.ahbExpression with
  | none => simp [AhbLine.relabel, he, BothWritten.none]
  | some e =>
    simp only [AhbLine.relabel, he, Option.map_some]
    have hb : NotBlank e := (notBlank_iff e).1 (by simpa [he] using this l hl)
    refine .some hb ?_
    rw [← strip_ne_nil, ← trim_eq, exRelabelling_fair.strip_expression, Ne, exRelabelling_fair.empty, trim_eq]
    exact (strip_ne_nil e).2 hb

/-- expressions have to be in the same lines: without the expression of the first line, no group is opened there -/
example : (toDeepAhb exReader exPosStr exFlat exSgh).toOption.map (fun r => (groupAddresses r.2.lines)) ≠
    (toDeepAhb exReader exPosStr { exFlat with lines := exFlat.lines.map fun l => { l with ahbExpression := none } } exSgh).toOption.map
      (fun r => (groupAddresses r.2.lines)) := by decide +kernel

/-- the hypothesis of `C93_locations` holds for lines without any other column, and `determine_locations` succeeds -/
example : (determineLocations exSgh exLines).toOption.isSome ∧ exLines ≠ exLines.map AhbLine.place := by decide +kernel

end Verif
