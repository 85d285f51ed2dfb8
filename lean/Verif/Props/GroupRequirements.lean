import Verif.Proofs.GroupRequirements
import Verif.Props.Requirements
/-!
# Property C104: requirements on segment groups
-/

namespace Verif

/-- **C104 (full statement)** If `to_deep_ahb` returns, the segment groups below the message, in document order, carry exactly the
expressions of the headings of segment groups of the flat AHB, in the same order and number. This is false of the code:
`C104_counterexample`. -/
def C104_statement : Prop :=
  ∀ (reader : MigLookup) (posStr : AhbLocation → PyStr) (flat flat' : FlatAhb) (sgh : Sgh) (deep : DeepAhb),
    toDeepAhb reader posStr flat sgh = .ok (flat', deep) →
    (((documentOrder deep.lines).filterMap DocItem.groupNote?).map GroupNote.expression).tail = flat.lines.filterMap AhbLine.groupRequirement?

/-- **C104 (exact)** Which segment groups the deep AHB has: divide the located lines into the longest parts of consecutive lines at the same
place. The groups, in document order, are those which the parts ask for, except that a group is left out if an earlier part asked
for a group with the same discriminator. -/
theorem C104_exact (reader : MigLookup) (posStr : AhbLocation → PyStr) (flat flat' : FlatAhb) (sgh : Sgh) (deep : DeepAhb)
    (h : toDeepAhb reader posStr flat sgh = .ok (flat', deep)) :
    ∃ located parts, determineLocations sgh flat.lines = .ok located ∧ PlaceParts located parts ∧
      (documentOrder deep.lines).filterMap DocItem.groupNote? = firstNotes (parts.filterMap (askedGroup reader)) ∧
      ∀ x ∈ documentOrder deep.lines, (∃ d e i, x = .group d e i) → x.groupNote? ≠ none := by
  obtain ⟨located, h1, h2, _⟩ := toDeepAhb_facts h
  refine ⟨located, _, h1, runs_placeParts located, ?_, ?_⟩
  · rw [h2, createdItems_groupNotes (runsOf located) (fun _ hr => hr) [], List.filterMap_map]
    simp only [List.not_mem_nil, not_false_eq_true, decide_true, List.filter_true]
    rfl
  · rintro x hx ⟨d, e, i, rfl⟩
    rw [h2] at hx
    obtain ⟨r, _, used, hm⟩ := createdItems_run _ _ hx
    obtain ⟨_, _, _, _, _, _, _, _, rfl, _⟩ := created_group hm
    simp [DocItem.groupNote?]

/-- **C104 (parts)** there is only one way to divide located lines into such parts. -/
theorem C104_parts_unique (located : List (AhbLine × AhbLocation)) (parts parts' : List (List (AhbLine × AhbLocation)))
    (h : PlaceParts located parts) (h' : PlaceParts located parts') : parts = parts' :=
  placeParts_unique h h'

/-- **C104 (partial)** If the lines at one place ask for a group, there is a group with this discriminator at some depth; it carries the
expression and the index of the first of these lines unless lines further up asked for the same discriminator. -/
theorem C104_asked_partial (reader : MigLookup) (posStr : AhbLocation → PyStr) (flat flat' : FlatAhb) (sgh : Sgh) (deep : DeepAhb)
    (h : toDeepAhb reader posStr flat sgh = .ok (flat', deep)) (located : List (AhbLine × AhbLocation))
    (hl : determineLocations sgh flat.lines = .ok located) (parts : List (List (AhbLine × AhbLocation))) (hp : PlaceParts located parts)
    (n : Nat) (part : List (AhbLine × AhbLocation)) (hn : parts[n]? = some part) (note : GroupNote) (hnote : askedGroup reader part = some note) :
    ∃ g, GroupOccurs deep.lines g ∧ g.discriminator = some note.discriminator ∧
      ((∀ (m : Nat) (earlier : List (AhbLine × AhbLocation)) (other : GroupNote), m < n → parts[m]? = some earlier →
        askedGroup reader earlier = some other → other.discriminator ≠ note.discriminator) →
        g.ahbExpression = note.expression ∧ g.ahbLineIndex = note.index) := by
  obtain ⟨located', parts', hl', hp', he, -⟩ := C104_exact reader posStr flat flat' sgh deep h
  rw [hl] at hl'
  cases hl'
  obtain rfl := placeParts_unique hp hp'
  have hmem : note ∈ parts.filterMap (askedGroup reader) := List.mem_filterMap.2 ⟨part, List.mem_of_getElem? hn, hnote⟩
  by_cases hfirst : ∀ (m : Nat) (earlier : List (AhbLine × AhbLocation)) (other : GroupNote), m < n → parts[m]? = some earlier →
      askedGroup reader earlier = some other → other.discriminator ≠ note.discriminator
  · have hin : note ∈ firstNotes (parts.filterMap (askedGroup reader)) := mem_firstNotes.2 ⟨n, part, hn, hnote, hfirst⟩
    rw [← he] at hin
    obtain ⟨g, hg, h1, h2, h3⟩ := mem_groupNotes.1 hin
    exact ⟨g, hg, h1, fun _ => ⟨h2, h3⟩⟩
  · obtain ⟨y, hy, hyn⟩ := exists_firstNote hmem
    rw [← he] at hy
    obtain ⟨g, hg, h1, _⟩ := mem_groupNotes.1 hy
    exact ⟨g, hg, by rw [h1, hyn], fun h => absurd h hfirst⟩

/-- **C104 (nothing invented)** Every group of the deep AHB, at any depth, has been asked for: it carries the expression and the index of the
first of the lines at one place, and no lines further up asked for a group with its discriminator. -/
theorem C104_nothing_invented (reader : MigLookup) (posStr : AhbLocation → PyStr) (flat flat' : FlatAhb) (sgh : Sgh) (deep : DeepAhb)
    (h : toDeepAhb reader posStr flat sgh = .ok (flat', deep)) (located : List (AhbLine × AhbLocation))
    (hl : determineLocations sgh flat.lines = .ok located) (parts : List (List (AhbLine × AhbLocation))) (hp : PlaceParts located parts)
    (g : SegmentGroup) (hg : GroupOccurs deep.lines g) :
    ∃ (n : Nat) (part : List (AhbLine × AhbLocation)) (note : GroupNote), parts[n]? = some part ∧ askedGroup reader part = some note ∧
      g.discriminator = some note.discriminator ∧ g.ahbExpression = note.expression ∧ g.ahbLineIndex = note.index ∧
      ∀ (m : Nat) (earlier : List (AhbLine × AhbLocation)) (other : GroupNote), m < n → parts[m]? = some earlier →
        askedGroup reader earlier = some other → other.discriminator ≠ note.discriminator := by
  obtain ⟨located', parts', hl', hp', he, hsome⟩ := C104_exact reader posStr flat flat' sgh deep h
  rw [hl] at hl'
  cases hl'
  obtain rfl := placeParts_unique hp hp'
  have hx : g.header ∈ documentOrder deep.lines := (mem_documentOrder_iff _ _).2 ⟨g, hg, .inl rfl⟩
  have hne := hsome _ hx ⟨_, _, _, rfl⟩
  obtain ⟨note, hnote⟩ := Option.ne_none_iff_exists'.1 hne
  have hin : note ∈ (documentOrder deep.lines).filterMap DocItem.groupNote? := List.mem_filterMap.2 ⟨_, hx, hnote⟩
  have hfields : g.discriminator = some note.discriminator ∧ g.ahbExpression = note.expression ∧ g.ahbLineIndex = note.index := by
    unfold SegmentGroup.header at hnote
    cases hd : g.discriminator with
    | none => rw [hd] at hnote; cases hnote
    | some d => rw [hd] at hnote; cases hnote; exact ⟨rfl, rfl, rfl⟩
  rw [he] at hin
  obtain ⟨n, part, hn, hask, hfirst⟩ := mem_firstNotes.1 hin
  exact ⟨n, part, note, hn, hask, hfields.1, hfields.2.1, hfields.2.2, hfirst⟩

/-! ## example and counterexample -/

/-- two groups with the same opening qualifier, whose headings have different expressions -/
def exTwoHeadings : List AhbLine :=
  let ln (k c d v : Option PyStr) (e : PyStr) : AhbLine :=
    { segmentGroupKey := k, segmentCode := c, dataElement := d, valuePoolEntry := v, ahbExpression := some e, name := some py!"name" }
  [ ln none (some py!"UNH") none none py!"Muss",
    ln (some py!"SG2") none none none py!"Muss",
    ln (some py!"SG2") (some py!"NAD") none none py!"Muss",
    ln (some py!"SG2") (some py!"NAD") (some py!"3035") (some py!"MS") py!"X",
    ln (some py!"SG2") none none none py!"Kann",
    ln (some py!"SG2") (some py!"NAD") none none py!"Muss",
    ln (some py!"SG2") (some py!"NAD") (some py!"3035") (some py!"MS") py!"X" ]

/-- **C104 (counterexample)** two groups for which the template has the same element: the second one is lost, with the expression of its
heading; its segments are added to the first one. -/
theorem C104_counterexample : ¬ C104_statement := by
  intro hst
  have h : (toDeepAhb exReader exPosStr ⟨⟨py!"11042", none, none, none⟩, exTwoHeadings⟩ exSgh).map
      (fun r => (((documentOrder r.2.lines).filterMap DocItem.groupNote?).map GroupNote.expression).tail) = .ok [py!"Muss"] := by decide +kernel
  cases hr : toDeepAhb exReader exPosStr ⟨⟨py!"11042", none, none, none⟩, exTwoHeadings⟩ exSgh with
  | error e => rw [hr] at h; cases h
  | ok r =>
    rw [hr] at h
    have h2 := hst exReader exPosStr _ r.1 exSgh r.2 hr
    simp only [Except.map, Except.ok.injEq] at h
    rw [h2] at h
    revert h
    decide

/-- in the example of C83 nothing is lost -/
example : (toDeepAhb exReader exPosStr (exNadFlat py!"3124" py!"Kann") exSgh).map
      (fun r => (((documentOrder r.2.lines).filterMap DocItem.groupNote?).map GroupNote.expression).tail) =
    .ok ((exNadLines py!"3124" py!"Kann").filterMap AhbLine.groupRequirement?) := by decide +kernel

/-- the parts of the example that ask for a group: the message, the sender, and the end of the message, whose group exists already -/
example : (determineLocations exSgh (exNadLines py!"3124" py!"Kann")).map
      (fun located => ((runsOf located).map Prod.snd).filterMap (askedGroup exReader)) =
    .ok [⟨py!"$[\"Dokument\"][0][\"Nachricht\"][0]", py!"Muss", none⟩, ⟨py!"$[\"Dokument\"][0][\"Nachricht\"][0][\"SG2MS\"][0]", py!"Kann", none⟩,
      ⟨py!"$[\"Dokument\"][0][\"Nachricht\"][0]", py!"Muss", none⟩] := by decide +kernel

end Verif
