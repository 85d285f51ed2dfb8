import Verif.Proofs.Placement
/-!
# C102: segments are placed in the group they belong to
-/

namespace Verif

/-- **C102 (the group opened last)** a segment is in the group that was opened last, by the run of lines from which the segment is created or by a
run before it. -/
theorem C102_last_group {reader : MigLookup} {posStr : AhbLocation → PyStr} {flat flat' : FlatAhb} {sgh : Sgh} {deep : DeepAhb}
    (h : toDeepAhb reader posStr flat sgh = .ok (flat', deep)) {g : SegmentGroup} {s : Segment} (hg : GroupOccurs deep.lines g)
    (hs : s ∈ g.ownSegments) :
    ∃ located n m, determineLocations sgh flat.lines = .ok located ∧ n ≤ m ∧ CreatedBy reader posStr (runsOf located) n g.header ∧
      CreatedBy reader posStr (runsOf located) m s.header ∧
      ∀ k z, n < k → k ≤ m → CreatedBy reader posStr (runsOf located) k z → ¬ z.IsGroup := by
  obtain ⟨located, hl, hdoc, _⟩ := toDeepAhb_facts h
  obtain ⟨A, M, C, hitems, hM⟩ := documentOrder_segment hg hs
  rw [hdoc] at hitems
  obtain ⟨n, m, h1⟩ := createdBy_segment hitems hM ⟨_, _, _, _, _, rfl⟩
  exact ⟨located, n, m, hl, h1⟩

/-- **C102 (the segment created last)** a data element is in the segment that was created last before it, and this one is in the group
that was opened last. -/
theorem C102_last_segment {reader : MigLookup} {posStr : AhbLocation → PyStr} {flat flat' : FlatAhb} {sgh : Sgh} {deep : DeepAhb}
    (h : toDeepAhb reader posStr flat sgh = .ok (flat', deep)) {g : SegmentGroup} {s : Segment} {de : DataElement}
    (hg : GroupOccurs deep.lines g) (hs : s ∈ g.ownSegments) (hde : de ∈ s.dataElements) :
    ∃ located n m k, determineLocations sgh flat.lines = .ok located ∧ n ≤ m ∧ m < k ∧
      CreatedBy reader posStr (runsOf located) n g.header ∧ CreatedBy reader posStr (runsOf located) m s.header ∧
      CreatedBy reader posStr (runsOf located) k (.dataElement de) ∧
      (∀ l z, n < l → l ≤ m → CreatedBy reader posStr (runsOf located) l z → ¬ z.IsGroup) ∧
      ∀ l z, m < l → l ≤ k → CreatedBy reader posStr (runsOf located) l z → ¬ (z.IsGroup ∨ z.IsSegment) := by
  obtain ⟨located, hl, hdoc, _⟩ := toDeepAhb_facts h
  obtain ⟨A, M, C, hitems, hM⟩ := documentOrder_segment hg hs
  obtain ⟨d1, d2, hd⟩ := List.append_of_mem hde
  rw [hdoc, hd] at hitems
  obtain ⟨n, m, k, h1⟩ := createdBy_dataElement (y := s.header) (M' := d1.map .dataElement) (C := d2.map .dataElement ++ C) (de := de)
    (by simpa using hitems) hM (by
      intro z hz
      obtain ⟨x, _, rfl⟩ := List.mem_map.1 hz
      rintro (⟨_, _, _, h⟩ | ⟨_, _, _, _, _, h⟩) <;> cases h) ⟨_, _, _, _, _, rfl⟩
  exact ⟨located, n, m, k, hl, h1⟩

/-- **C102 (partial)** if every line for which something is created has the layers of the group opened last, the discriminators show the nesting:
the discriminator of a data element begins with that of its group, the discriminator of a segment is that of its group unless the
template does not know the segment. Missing: AHBs in which segments of an outer group follow after an inner group; for them the statement is
false (`C102_false`). -/
theorem C102_partial {root document : Xml} {m : Nat} (hm : OnlyChild (IsClass py!"/") root m) (hc : root.children[m]? = some document)
    {posStr : AhbLocation → PyStr} (hpos : ∀ loc, (posStr loc).head? ≠ some '$') {flat flat' : FlatAhb} {sgh : Sgh} {deep : DeepAhb}
    (h : toDeepAhb (migLookup root) posStr flat sgh = .ok (flat', deep))
    (hstay : ∀ located, determineLocations sgh flat.lines = .ok located → StaysInGroup (migLookup root) posStr (runsOf located)) :
    ShowsNesting root deep.lines := by
  intro g s hg hs
  constructor
  · obtain ⟨located, n, k, hl, hnk, ⟨o, ho, hgo⟩, ⟨r, hr, hsr⟩, hno⟩ := C102_last_group h hg hs
    have hlay := hstay located hl n k o r _ _ hnk ho hr ⟨o, ho, hgo⟩ ⟨_, _, _, rfl⟩ ⟨r, hr, hsr⟩ hno
    have hor := List.mem_of_getElem? ho
    have hrr := List.mem_of_getElem? hr
    obtain ⟨hnd, _, layer, st, _, _, h3, _, h5, _⟩ := created_group hgo
    obtain ⟨hnd', hd⟩ := created_segment hsr
    obtain ⟨loc, hloc, hwhere⟩ := run_stack_some h3
    cases hst : r.stack (migLookup root) with
    | none =>
      right
      rintro ⟨d, path, es, hd', hlead⟩
      rw [hst] at hd
      have hd : s.discriminator = some (posStr r.location) := hd
      rw [hd] at hd'
      cases hd'
      obtain ⟨_, _, _, _, he⟩ := hlead
      exact hpos r.location (by rw [he]; rfl)
    | some st' =>
      left
      rw [hst] at hd
      have hd : s.discriminator = some st'.toJsonPath := hd
      obtain ⟨loc', hloc', hwhere'⟩ := run_stack_some hst
      obtain ⟨p, es, e, l1, f1⟩ := location_found hm hc hloc
      obtain ⟨q, fs, f, l2, f2⟩ := location_found hm hc hloc'
      have hq := (found_layers f1 f2 (by rw [(run_location_eq hrr hwhere').1, (run_location_eq hor hwhere).1, hlay])
        (run_no_dataElement hl hor hnd hwhere)).2 (run_no_dataElement hl hrr hnd' hwhere')
      subst hq
      rw [hd, h5]
      have a := leadsTo_prefix (q := []) l1 (by simpa using l2)
      have b := leadsTo_prefix (q := []) l2 (by simpa using l1)
      rw [a.eq_of_length (Nat.le_antisymm a.length_le b.length_le)]
  · intro de hde d e' hd' he'
    obtain ⟨located, n, i, k, hl, hni, hik, ⟨o, ho, hgo⟩, _, ⟨r, hr, hsr⟩, hno, hno'⟩ := C102_last_segment h hg hs hde
    have hlay := hstay located hl n k o r _ _ (by omega) ho hr ⟨o, ho, hgo⟩ ⟨_, _, _, rfl⟩ ⟨r, hr, hsr⟩ (by
      intro l z h1 h2 hz hzg
      by_cases hli : l ≤ i
      · exact hno l z h1 hli hz hzg
      · exact hno' l z (by omega) h2 hz (.inl hzg))
    have hor := List.mem_of_getElem? ho
    have hrr := List.mem_of_getElem? hr
    obtain ⟨hnd, _, layer, st, _, _, h3, _, h5, _⟩ := created_group hgo
    have h5 : g.discriminator = some st.toJsonPath := h5
    rw [hd'] at h5
    cases h5
    obtain ⟨loc, hloc, hwhere⟩ := run_stack_some h3
    obtain ⟨_, first, rest, id, hlines, hid, _, hdisc, hid', _⟩ := merge_ok (created_dataElement hsr)
    rw [he'] at hdisc
    cases hst : r.stack (migLookup root) with
    | none => rw [hst] at hdisc; cases hdisc
    | some st' =>
      rw [hst] at hdisc
      cases hdisc
      obtain ⟨loc', hloc', hwhere'⟩ := run_stack_some hst
      obtain ⟨p, es, e, l1, f1⟩ := location_found hm hc hloc
      obtain ⟨q, fs, f, l2, f2⟩ := location_found hm hc hloc'
      obtain ⟨⟨t, rfl⟩, _⟩ := found_layers f1 f2 (by rw [(run_location_eq hrr hwhere').1, (run_location_eq hor hwhere).1, hlay])
        (run_no_dataElement hl hor hnd hwhere)
      exact leadsTo_prefix (q := t) l1 (by simpa using l2)

/-! ## the general claim is false -/

/-- **C102 (false in general)** when the segments of an outer group go on after an inner group, they are placed in the inner group: in the example
the last segment of the message has the discriminator of the message, but it is in the group of the recipient. -/
theorem C102_false : ∃ root document m posStr flat sgh flat' deep, OnlyChild (IsClass py!"/") root m ∧ root.children[m]? = some document ∧
    (∀ loc, (posStr loc).head? ≠ some '$') ∧ toDeepAhb (migLookup root) posStr flat sgh = .ok (flat', deep) ∧ ¬ ShowsNesting root deep.lines := by
  have hmap : (toDeepAhb (migLookup exTemplate) exPosStr exFlat exSgh).map (fun r =>
      ((groupAt? r.2.lines [0, 1]).map fun g => g.discriminator :: g.ownSegments.map (·.discriminator))) =
      .ok (some [some py!"$[\"Dokument\"][0][\"Nachricht\"][0][\"Empfänger\"][0]", some py!"$[\"Dokument\"][0][\"Nachricht\"][0][\"Empfänger\"][0]",
        some py!"position", some py!"$[\"Dokument\"][0][\"Nachricht\"][0]"]) := by decide +kernel
  have hmap0 : (toDeepAhb (migLookup exTemplate) exPosStr exFlat exSgh).map (fun r => (groupAt? r.2.lines [0]).map (·.discriminator)) =
      .ok (some (some py!"$[\"Dokument\"][0][\"Nachricht\"][0]")) := by decide +kernel
  cases h : toDeepAhb (migLookup exTemplate) exPosStr exFlat exSgh with
  | error e => rw [h] at hmap; cases hmap
  | ok r =>
    rw [h] at hmap hmap0
    have h1 := Except.ok.inj hmap
    have h2 := Except.ok.inj hmap0
    obtain ⟨g, hg, h1⟩ := Option.map_eq_some_iff.1 h1
    obtain ⟨g0, hg0, h2⟩ := Option.map_eq_some_iff.1 h2
    obtain ⟨hd, hsegs⟩ := List.cons.inj h1
    refine ⟨exTemplate, _, 0, exPosStr, exFlat, exSgh, r.1, r.2, ⟨⟨_, rfl, rfl, by decide +kernel⟩, ?_⟩, rfl, ?_, h, ?_⟩
    · intro j d hj _
      cases j with
      | zero => rfl
      | succ j => simp [exTemplate, Xml.children] at hj
    · intro loc
      simp [exPosStr]
    · intro hshow
      obtain ⟨s, hs, hsd⟩ : ∃ s ∈ g.ownSegments, s.discriminator = some py!"$[\"Dokument\"][0][\"Nachricht\"][0]" := by
        have : some py!"$[\"Dokument\"][0][\"Nachricht\"][0]" ∈ g.ownSegments.map (·.discriminator) := by rw [hsegs]; simp
        obtain ⟨s, h3, h4⟩ := List.mem_map.1 this
        exact ⟨s, h3, h4⟩
      rcases (hshow g s ⟨_, hg⟩ hs).1 with h3 | h3
      · rw [hsd, hd] at h3
        exact absurd (Option.some.inj h3) (by decide)
      · obtain ⟨_, _, _, _, d, path, doc, cs, c, h4, h5, _⟩ := C101_groups h ⟨_, hg0⟩
        rw [h2] at h4
        cases h4
        exact h3 ⟨_, _, _, hsd, h5⟩

/-! ## example -/

/-- what the `n`-th run creates -/
def createdAt (reader : MigLookup) (posStr : AhbLocation → PyStr) (runs : List Run) (n : Nat) : List DocItem :=
  match runs[n]? with
  | some r => r.created reader posStr (usedBefore reader (runs.take n))
  | none => []

theorem mem_createdAt {reader : MigLookup} {posStr} {runs : List Run} {n : Nat} {x : DocItem} :
    x ∈ createdAt reader posStr runs n ↔ CreatedBy reader posStr runs n x := by
  unfold createdAt CreatedBy
  cases runs[n]? <;> simp

theorem isGroup_iff {x : DocItem} : x.isGroup = true ↔ x.IsGroup := by
  unfold DocItem.IsGroup
  cases x <;> simp [DocItem.isGroup]

/-- the layers of the `n`-th run -/
def layersAt (runs : List Run) (n : Nat) : Option (List AhbLocationLayer) := (runs[n]?).map fun r => r.1.layers

/-- a check of `StaysInGroup` -/
def staysB (reader : MigLookup) (posStr : AhbLocation → PyStr) (runs : List Run) : Bool :=
  (List.range runs.length).all fun n => !(createdAt reader posStr runs n).any DocItem.isGroup ||
    (List.range runs.length).all fun m => !decide (n ≤ m) || (createdAt reader posStr runs m).isEmpty ||
      ((List.range runs.length).any fun k => decide (n < k) && decide (k ≤ m) && (createdAt reader posStr runs k).any DocItem.isGroup) ||
      decide (layersAt runs m = layersAt runs n)

theorem stays_of_staysB {reader : MigLookup} {posStr} {runs : List Run} (h : staysB reader posStr runs = true) :
    StaysInGroup reader posStr runs := by
  intro n m o r x y hnm ho hr hx hxg hy hno
  unfold staysB at h
  rw [List.all_eq_true] at h
  have hn := (List.getElem?_eq_some_iff.1 ho).1
  have hm := (List.getElem?_eq_some_iff.1 hr).1
  have h1 := h n (by simpa using hn)
  rw [Bool.or_eq_true] at h1
  rcases h1 with h1 | h1
  · exfalso
    rw [Bool.not_eq_true', List.any_eq_false] at h1
    exact h1 x (mem_createdAt.2 hx) (isGroup_iff.2 hxg)
  · rw [List.all_eq_true] at h1
    have h2 := h1 m (by simpa using hm)
    simp only [Bool.or_eq_true] at h2
    rcases h2 with ((h2 | h2) | h2) | h2
    · simp at h2; omega
    · rw [List.isEmpty_iff] at h2
      have := mem_createdAt.2 hy
      rw [h2] at this
      cases this
    · exfalso
      rw [List.any_eq_true] at h2
      obtain ⟨k, _, h3⟩ := h2
      simp only [Bool.and_eq_true, decide_eq_true_eq, List.any_eq_true] at h3
      obtain ⟨⟨a, b⟩, z, hz, hzg⟩ := h3
      exact hno k z a b (mem_createdAt.1 hz) (isGroup_iff.1 hzg)
    · have := of_decide_eq_true h2
      unfold layersAt at this
      rw [ho, hr] at this
      simpa using this

/-- the example AHB without the segments after the group of the recipient -/
def exFlatStays : FlatAhb := ⟨⟨py!"11042", none, none, none⟩, exLines.take 9⟩

/-- the hypotheses of `C102_partial` are met by it; the groups, segments and data elements are those of the message, the sender and the
recipient -/
example : ((toDeepAhb (migLookup exTemplate) exPosStr exFlatStays exSgh).map fun r => (documentOrder r.2.lines).map fun
      | .group d _ _ => ('g', d)
      | .segment d _ _ _ _ => ('s', d)
      | .dataElement de => ('d', de.discriminator)) =
    (let root := py!"$[\"Dokument\"][0][\"Nachricht\"][0]"
    .ok [('g', some root), ('s', some root), ('d', some (root ++ py!"[\"Referenz\"]")),
      ('g', some (root ++ py!"[\"Absender\"][0]")), ('s', some (root ++ py!"[\"Absender\"][0]")), ('d', some (root ++ py!"[\"Absender\"][0][\"Art\"]")),
      ('g', some (root ++ py!"[\"Empfänger\"][0]")), ('s', some (root ++ py!"[\"Empfänger\"][0]")), ('d', some (root ++ py!"[\"Empfänger\"][0][\"Art\"]"))]) ∧
    ∀ located, determineLocations exSgh exFlatStays.lines = .ok located → StaysInGroup (migLookup exTemplate) exPosStr (runsOf located) := by
  refine ⟨by decide +kernel, fun located hl => stays_of_staysB ?_⟩
  have hmap : (determineLocations exSgh exFlatStays.lines).map (fun located => staysB (migLookup exTemplate) exPosStr (runsOf located)) =
      .ok true := by decide +kernel
  rw [hl] at hmap
  exact Except.ok.inj hmap

end Verif
