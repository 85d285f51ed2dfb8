import Verif.Spec.GroupRequirements
import Verif.Proofs.Requirements
import Verif.Proofs.TemplatePath
import Verif.Proofs.DeepOps
/-!
# Helper lemmas: requirements on segment groups
-/

namespace Verif

theorem all_none_eq (part : List (AhbLine × AhbLocation)) :
    (part.all fun x => decide (x.1.segmentCode = none)) = (part.map Prod.fst).all fun l => l.segmentCode.isNone := by
  rw [List.all_map]
  congr 1
  funext x
  rcases x with ⟨l, _⟩
  cases h : l.segmentCode <;> simp [h]

theorem any_some_eq (part : List (AhbLine × AhbLocation)) :
    (part.any fun x => decide (x.1.dataElement ≠ none)) = (part.map Prod.fst).any fun l => l.dataElement.isSome := by
  rw [List.any_map]
  congr 1
  funext x
  rcases x with ⟨l, _⟩
  cases h : l.dataElement <;> simp [h]

theorem placePath_eq (reader : MigLookup) {located : List (AhbLine × AhbLocation)} {r : Run} (hr : r ∈ runsOf located) :
    placePath reader r.2 = (r.stack reader).map EdifactStack.toJsonPath := by
  obtain ⟨hne, hk⟩ := groupBy_keys _ _ r hr
  unfold placePath Run.stack Run.location
  obtain ⟨key, part⟩ := r
  match part, hne, hk with
  | [], hne, _ => exact absurd rfl hne
  | [(l, loc)], _, _ =>
    simp only
    cases reader loc with
    | error e => rfl
    | ok s => cases s <;> rfl
  | (l, loc) :: y :: t, _, hk =>
    have h := hk (l, loc) (by simp)
    simp only [removeQualifier] at h
    simp only
    rw [h]
    cases reader key with
    | error e =>
      simp only
      cases reader loc with
      | error e => rfl
      | ok s => cases s <;> rfl
    | ok s => cases s <;> rfl

theorem created_groupNote {reader : MigLookup} {posStr} {located : List (AhbLine × AhbLocation)} {r : Run} (hr : r ∈ runsOf located)
    (used : List PyStr) :
    (r.created reader posStr used).filterMap DocItem.groupNote? =
      ((askedGroup reader r.2).filter fun n => n.discriminator ∉ used).toList ∧
    r.usedAfter reader used = used ++ (((askedGroup reader r.2).filter fun n => n.discriminator ∉ used).map GroupNote.discriminator).toList := by
  have hpath := placePath_eq reader hr
  have hlayers : ∀ x, r.2.head? = some x → x.2.layers = r.location.layers := by
    intro x hx
    rw [(run_location_eq hr (.inr ⟨x, List.mem_of_head? hx, rfl⟩)).1, ← (run_location_eq hr (.inl rfl)).1]
  unfold Run.created Run.usedAfter askedGroup
  rw [all_none_eq, any_some_eq]
  have e1 : ((r.2.map Prod.fst).all fun l => l.segmentCode.isNone) = r.isHeading := rfl
  have e2 : ((r.2.map Prod.fst).any fun l => l.dataElement.isSome) = r.hasDataElement := rfl
  rw [e1, e2]
  by_cases hh : r.isHeading = true
  · simp [hh]
  by_cases hd : r.hasDataElement = true
  · rw [if_neg hh, if_pos hd]
    simp only [hd, Bool.or_true, if_true, Option.filter_none, Option.toList_none, Option.map_none, List.append_nil, and_true]
    unfold Run.createdDataElement
    split
    · split <;> rfl
    · rfl
  · have hh' : r.isHeading = false := by simpa using hh
    have hd' : r.hasDataElement = false := by simpa using hd
    have hseg : (r.createdSegment reader posStr).toList.filterMap DocItem.groupNote? = [] := by
      unfold Run.createdSegment
      split <;> rfl
    rw [if_neg hh, if_neg hd, List.filterMap_append, hseg, List.append_nil]
    simp only [hh', hd', Bool.or_false, Bool.false_eq_true, if_false]
    unfold Run.openedGroup Run.openedPath
    rw [hpath]
    have hhead : r.lines.head? = r.2.head?.map Prod.fst := by simp [Run.lines]
    have hlast : r.lines.getLast? = r.2.getLast?.map Prod.fst := by simp [Run.lines]
    rw [hhead, hlast]
    cases h1 : r.2.head? with
    | none => simp
    | some first =>
      have hl := hlayers first h1
      cases h2 : r.2.getLast? with
      | none => simp
      | some last =>
        cases h3 : r.stack reader with
        | none => simp
        | some s =>
          simp only [Option.map_some, hl]
          cases h4 : r.location.layers.getLast? with
          | none => simp
          | some layer =>
            cases h5 : first.1.ahbExpression with
            | none => simp [h5]
            | some e =>
              simp only [Option.map_some, h5, ne_eq, reduceCtorEq, not_false_eq_true, and_true]
              by_cases h6 : layer.segmentGroupKey = first.1.segmentGroupKey ∧ last.1.segmentCode = some layer.openingSegmentCode
              · obtain ⟨h6, h7⟩ := h6
                by_cases h8 : s.toJsonPath ∈ used
                · simp [h6, h7, h8, Option.filter]
                · simp [h6, h7, h8, Option.filter, DocItem.groupNote?, h5]
              · rw [if_neg (fun h => h6 ⟨h.1.symm, h.2.1⟩), if_neg h6]
                simp

theorem firstNotes_filter (used : List PyStr) (x : Option GroupNote) (ns : List GroupNote) :
    (firstNotes (x.toList ++ ns)).filter (fun n => n.discriminator ∉ used) =
      (x.filter fun n => n.discriminator ∉ used).toList ++ (firstNotes ns).filter fun n =>
        n.discriminator ∉ used ++ ((x.filter fun n => n.discriminator ∉ used).map GroupNote.discriminator).toList := by
  cases x with
  | none => simp
  | some x =>
    by_cases h : x.discriminator ∈ used
    · simp only [Option.toList_some, List.cons_append, List.nil_append, firstNotes, List.filter_cons, h, not_true_eq_false, decide_false,
        Option.filter_some, Option.toList_none, Option.map_none, List.append_nil, List.filter_filter, Bool.false_eq_true, if_false]
      apply List.filter_congr
      intro y _
      by_cases hy : y.discriminator ∈ used
      · simp [hy]
      · have : y.discriminator ≠ x.discriminator := fun e => hy (e ▸ h)
        simp [hy, this]
    · simp only [Option.toList_some, List.cons_append, List.nil_append, firstNotes, List.filter_cons, h, not_false_eq_true, decide_true,
        Option.filter_some, Option.map_some, List.filter_filter, if_true, List.mem_append, List.mem_singleton, not_or, Bool.decide_and]

theorem createdItems_groupNotes {reader : MigLookup} {posStr} {located : List (AhbLine × AhbLocation)} (runs : List Run)
    (hr : ∀ r ∈ runs, r ∈ runsOf located) (used : List PyStr) :
    (createdItems reader posStr used runs).filterMap DocItem.groupNote? =
      (firstNotes (runs.filterMap fun r => askedGroup reader r.2)).filter fun n => n.discriminator ∉ used := by
  induction runs generalizing used with
  | nil => rfl
  | cons r runs ih =>
    obtain ⟨h1, h2⟩ := created_groupNote (posStr := posStr) (hr r (by simp)) (reader := reader) used
    rw [createdItems, List.filterMap_append, h1, ih (fun r' h' => hr r' (by simp [h'])), h2]
    have : (r :: runs).filterMap (fun r => askedGroup reader r.2) = (askedGroup reader r.2).toList ++ runs.filterMap fun r => askedGroup reader r.2 := by
      rw [List.filterMap_cons]
      cases askedGroup reader r.2 <;> rfl
    rw [this, firstNotes_filter]

/-- a note that is kept is the first one with its discriminator -/
theorem mem_firstNotes {α : Type} {f : α → Option GroupNote} {l : List α} {x : GroupNote} :
    x ∈ firstNotes (l.filterMap f) ↔ ∃ (n : Nat) (p : α), l[n]? = some p ∧ f p = some x ∧
      ∀ (m : Nat) (q : α) (y : GroupNote), m < n → l[m]? = some q → f q = some y → y.discriminator ≠ x.discriminator := by
  induction l with
  | nil => simp [firstNotes]
  | cons a l ih =>
    cases ha : f a with
    | none =>
      rw [List.filterMap_cons_none ha, ih]
      constructor
      · rintro ⟨n, p, h1, h2, h3⟩
        refine ⟨n + 1, p, h1, h2, fun m q y hm hq hy => ?_⟩
        cases m with
        | zero => cases hq; rw [ha] at hy; cases hy
        | succ m => exact h3 m q y (by omega) hq hy
      · rintro ⟨n, p, h1, h2, h3⟩
        cases n with
        | zero => cases h1; rw [ha] at h2; cases h2
        | succ n => exact ⟨n, p, h1, h2, fun m q y hm hq hy => h3 (m + 1) q y (by omega) hq hy⟩
    | some z =>
      rw [List.filterMap_cons_some ha, firstNotes, List.mem_cons, List.mem_filter, ih]
      constructor
      · rintro (rfl | ⟨⟨n, p, h1, h2, h3⟩, h4⟩)
        · exact ⟨0, a, rfl, ha, fun m q y h => absurd h (by omega)⟩
        · refine ⟨n + 1, p, h1, h2, fun m q y hm hq hy => ?_⟩
          cases m with
          | zero =>
            cases hq
            rw [ha] at hy
            cases hy
            exact fun e => (of_decide_eq_true h4) e.symm
          | succ m => exact h3 m q y (by omega) hq hy
      · rintro ⟨n, p, h1, h2, h3⟩
        cases n with
        | zero =>
          cases h1
          rw [ha] at h2
          cases h2
          exact .inl rfl
        | succ n =>
          refine .inr ⟨⟨n, p, h1, h2, fun m q y hm hq hy => h3 (m + 1) q y (by omega) hq hy⟩, ?_⟩
          simpa using fun e => h3 0 a z (by omega) rfl ha e.symm

theorem placeParts_tail {p : List (AhbLine × AhbLocation)} {ps : List (List (AhbLine × AhbLocation))} {located : List (AhbLine × AhbLocation)}
    (h : PlaceParts located (p :: ps)) : PlaceParts ps.flatten ps :=
  ⟨rfl, fun q hq => h.2.1 q (List.mem_cons_of_mem _ hq), fun n a b ha hb => h.2.2 (n + 1) a b ha hb⟩

/-- the first part cannot be longer in another division -/
theorem placeParts_head {p q : List (AhbLine × AhbLocation)} {ps qs : List (List (AhbLine × AhbLocation))}
    {located : List (AhbLine × AhbLocation)} (hp : PlaceParts located (p :: ps)) (hq : PlaceParts located (q :: qs)) {t : List (AhbLine × AhbLocation)}
    (h : p = q ++ t) : t = [] := by
  subst h
  cases t with
  | nil => rfl
  | cons x t =>
    exfalso
    have e : x :: t ++ ps.flatten = qs.flatten := by
      have := hp.1.trans hq.1.symm
      simp only [List.flatten_cons, List.append_assoc] at this
      simpa using List.append_cancel_left this
    cases qs with
    | nil => simp at e
    | cons q' qs =>
      obtain ⟨hq1, hq2⟩ := hq.2.1 q' (by simp)
      obtain ⟨hq3, _⟩ := hq.2.1 q (by simp)
      cases q' with
      | nil => exact hq1 rfl
      | cons y q' =>
        obtain ⟨z, hz⟩ := List.exists_mem_of_ne_nil _ hq3
        have hxy : x = y := by simpa using (List.cons.inj e).1
        subst hxy
        exact hq.2.2 0 q (x :: q') rfl rfl z hz x (by simp) ((hp.2.1 (q ++ x :: t) (by simp)).2 z (by simp [hz]) x (by simp))

/-- there is only one division into longest parts -/
theorem placeParts_unique {located : List (AhbLine × AhbLocation)} {ps qs : List (List (AhbLine × AhbLocation))} (hp : PlaceParts located ps)
    (hq : PlaceParts located qs) : ps = qs := by
  induction ps generalizing qs located with
  | nil =>
    have h0 : located = [] := hp.1.symm
    cases qs with
    | nil => rfl
    | cons q qs =>
      have := hq.1
      rw [h0] at this
      simp only [List.flatten_cons, List.append_eq_nil_iff] at this
      exact absurd this.1 (hq.2.1 q (by simp)).1
  | cons p ps ih =>
    cases qs with
    | nil =>
      have h0 : located = [] := hq.1.symm
      have := hp.1
      rw [h0] at this
      simp only [List.flatten_cons, List.append_eq_nil_iff] at this
      exact absurd this.1 (hp.2.1 p (by simp)).1
    | cons q qs =>
      have hpq : p = q := by
        have := hp.1.trans hq.1.symm
        simp only [List.flatten_cons] at this
        rcases List.append_eq_append_iff.1 this with ⟨t, h1, _⟩ | ⟨t, h1, _⟩
        · rw [h1, placeParts_head hq hp h1, List.append_nil]
        · rw [h1, placeParts_head hp hq h1, List.append_nil]
      subst hpq
      have e : ps.flatten = qs.flatten := by
        have := hp.1.trans hq.1.symm
        simpa using this
      rw [ih (placeParts_tail hp) (by rw [e]; exact placeParts_tail hq)]

theorem exists_firstNote {ns : List GroupNote} {x : GroupNote} (h : x ∈ ns) : ∃ y ∈ firstNotes ns, y.discriminator = x.discriminator := by
  induction ns with
  | nil => cases h
  | cons a ns ih =>
    by_cases e : a.discriminator = x.discriminator
    · exact ⟨a, by simp [firstNotes], e⟩
    · rcases List.mem_cons.1 h with rfl | h
      · exact absurd rfl e
      · obtain ⟨y, hy, hyx⟩ := ih h
        refine ⟨y, ?_, hyx⟩
        rw [firstNotes, List.mem_cons, List.mem_filter]
        exact .inr ⟨hy, by simpa [hyx] using fun e' => e e'.symm⟩

theorem mem_groupNotes {lines : List SegmentGroup} {n : GroupNote} : n ∈ (documentOrder lines).filterMap DocItem.groupNote? ↔
    ∃ g, GroupOccurs lines g ∧ g.discriminator = some n.discriminator ∧ g.ahbExpression = n.expression ∧ g.ahbLineIndex = n.index := by
  rw [List.mem_filterMap]
  constructor
  · rintro ⟨x, hx, hn⟩
    obtain ⟨g, hg, rfl | ⟨s, hs, hx⟩⟩ := (mem_documentOrder_iff _ _).1 hx
    · refine ⟨g, hg, ?_⟩
      unfold SegmentGroup.header at hn
      cases hd : g.discriminator with
      | none => rw [hd] at hn; cases hn
      | some d => rw [hd] at hn; cases hn; exact ⟨rfl, rfl, rfl⟩
    · exfalso
      rcases List.mem_cons.1 hx with rfl | hx
      · cases hn
      · obtain ⟨de, _, rfl⟩ := List.mem_map.1 hx
        cases hn
  · rintro ⟨g, hg, h1, h2, h3⟩
    refine ⟨g.header, (mem_documentOrder_iff _ _).2 ⟨g, hg, .inl rfl⟩, ?_⟩
    unfold SegmentGroup.header
    rw [h1, h2, h3]
    rfl

end Verif
