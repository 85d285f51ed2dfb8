import Verif.Spec.DeepSuccess
import Verif.Proofs.Constructors
import Verif.Proofs.GroupBy
import Verif.Proofs.Csv
import Verif.Proofs.Raises
import Verif.Proofs.Requirements
import Verif.Props.Matching
/-! when `to_deep_ahb` succeeds -/

namespace Verif

theorem sharedLayers_eq (a b : List AhbLocationLayer) : sharedLayers a b = (lcp a b).length := by
  induction a generalizing b with
  | nil => cases b <;> rfl
  | cons x xs ih =>
    cases b with
    | nil => rfl
    | cons y ys =>
      simp only [sharedLayers, lcp]
      split <;> simp [ih]

/-! ## navigation -/

theorem popGroupLists_succeeds {lines c k n st} (h : DeepState.Nav st lines c n) (hk : k ≤ n) :
    ∃ st', popGroupLists k st = .ok st' := by
  induction k generalizing st n with
  | zero => exact ⟨st, rfl⟩
  | succ k ih =>
    obtain ⟨m, rfl⟩ : ∃ m, n = m + 1 := ⟨n - 1, by omega⟩
    have hle := h.le
    have htake : c.take (m + 1) = c.take m ++ [c[m]] := by rw [List.take_succ_eq_append_getElem]
    have h0 := h.parents
    rw [htake, properPrefixes_concat] at h0
    simp only [popGroupLists, h0, List.getLast?_concat, List.dropLast_concat]
    exact ih (n := m) ⟨h.lines, by omega, rfl, rfl⟩ (by omega)

theorem pushGroupLists_succeeds {lines c k n st} (hs : OnSpine lines c []) (h : DeepState.Nav st lines c n)
    (hk : n + k ≤ c.length) : ∃ st', pushGroupLists k st = .ok st' := by
  induction k generalizing st n with
  | zero => exact ⟨st, rfl⟩
  | succ k ih =>
    have hsplit : OnSpine lines (c.take n ++ c.drop n) [] := by rw [List.take_append_drop]; exact hs
    obtain ⟨r, h1, h2⟩ := hsplit.split
    have hg := h1.groupsAt
    simp only [pushGroupLists, h.sgHere, h.lines, hg]
    have hlt : n < c.length := by omega
    rw [List.drop_eq_getElem_cons hlt] at h2
    generalize hx : c[n] = x at h2
    generalize c.drop (n + 1) = q at h2
    cases h2 with
    | cons init g gs p r hgs hr =>
      rw [if_neg (by simp)]
      simp only [List.length_append, List.length_singleton, Nat.add_sub_cancel]
      have htake : c.take (n + 1) = c.take n ++ [init.length] := by rw [List.take_succ_eq_append_getElem hlt, hx]
      exact ih (n := n + 1) ⟨rfl, hlt, congrArg some htake.symm, by
        rw [htake, properPrefixes_concat, ← h.parents]⟩ (by omega)

theorem insertGroup_succeeds_iff {st p init g0 ss g pos} (h : DeepState.BuiltG st p init g0 ss)
    (hroot : g.discriminator ≠ some rootPath) (hpos : pos.pseudo = false)
    (hprev : ∀ x, st.previousPosition = some x → x.pseudo = false) :
    (∃ st', insertGroup g pos st = .ok st') ↔
      ∃ previous n, st.previousPosition.map AhbLocation.layers = some previous ∧
        depthAfter? (p.length + 1) previous pos.layers = some n := by
  have hnav : DeepState.Nav st st.lines (p ++ [init.length]) (p.length + 1) :=
    ⟨rfl, by simp, by rw [h.sgHere, List.take_of_length_le (by simp)], by
      rw [h.parents, List.take_of_length_le (by simp)]⟩
  have hup : ∀ q : AhbLocation, q.layers.length - (lcp q.layers pos.layers).length = 0 ↔ q.layers <+: pos.layers := by
    intro q
    have := (lcp_prefix_left q.layers pos.layers).length_le
    rw [← lcp_eq_left_iff]
    omega
  constructor
  · rintro ⟨st', hp⟩
    obtain ⟨previous, n, r, h1, _, h3, h4⟩ := insertGroup_built h hroot hp
    refine ⟨previous.layers, ?_⟩
    rw [h1]
    simp only [Option.map_some, true_and, depthAfter?, sharedLayers_eq]
    rcases h4 with ⟨hs, _⟩ | ⟨hs, d, hd, hle, hn⟩
    · rw [if_pos ((hup _).2 ((C04_is_sub_location_of _ _).1 hs))]
      exact ⟨_, rfl⟩
    · have hno : ¬ previous.layers <+: pos.layers := fun hp => by
        rw [(C04_is_sub_location_of _ _).2 hp] at hs; cases hs
      obtain ⟨d1, d2⟩ := distance_ok (hprev _ h1) hpos hd
      obtain ⟨l, hl1, hl2⟩ := (C06_distance_defined previous pos (hprev _ h1) hpos).1.1 ⟨d, hd⟩
      have hc : (lcp previous.layers pos.layers).length ≠ 0 := by
        cases hq : previous.layers with
        | nil => rw [hq] at hl1; cases hl1
        | cons a as =>
          cases hq2 : pos.layers with
          | nil => rw [hq2] at hl2; cases hl2
          | cons b bs =>
            rw [hq] at hl1; rw [hq2] at hl2
            cases hl1; cases hl2
            simp [lcp]
      rw [if_neg (mt (hup _).1 hno), if_pos ⟨hc, by rw [← d1]; exact hle, by rw [← d1, ← d2]; omega⟩]
      exact ⟨_, rfl⟩
  · rintro ⟨previous, n, h1, h2⟩
    cases hq : st.previousPosition with
    | none => rw [hq] at h1; cases h1
    | some q =>
      rw [hq] at h1
      cases h1
      simp only [depthAfter?, sharedLayers_eq] at h2
      unfold insertGroup
      rw [if_neg hroot, hq]
      dsimp only
      by_cases hs : pos.isSubLocationOf q = true
      · rw [if_pos hs]
        simp only [appendGroup, h.sgHere]
        exact ⟨_, rfl⟩
      · rw [if_neg hs]
        have hno : ¬ q.layers <+: pos.layers := fun hp => hs ((C04_is_sub_location_of _ _).2 hp)
        rw [if_neg (mt (hup _).1 hno)] at h2
        split at h2
        · rename_i hc
          obtain ⟨c1, c2, c3⟩ := hc
          have hdef : ∃ d, calculateDistance q pos = .ok d := by
            rw [(C06_distance_defined q pos (hprev _ hq) hpos).1]
            cases hq1 : q.layers with
            | nil => rw [hq1] at c1; simp [lcp] at c1
            | cons a as =>
              cases hq2 : pos.layers with
              | nil => rw [hq2] at c1; cases hq' : q.layers <;> simp [hq', lcp] at c1
              | cons b bs =>
                rw [hq1, hq2] at c1
                simp only [lcp] at c1
                split at c1
                · rename_i hab; subst hab; exact ⟨a, rfl, rfl⟩
                · simp at c1
          obtain ⟨d, hd⟩ := hdef
          obtain ⟨d1, d2⟩ := distance_ok (hprev _ hq) hpos hd
          obtain ⟨st1, hst1⟩ := popGroupLists_succeeds hnav (k := d.layersUp) (by rw [d1]; exact c2)
          obtain ⟨a1, a2, a3⟩ := popGroupLists_nav hnav hst1
          obtain ⟨st2, hst2⟩ := pushGroupLists_succeeds h.spineEnd a2 (k := d.layersDown - 1) (by simp; omega)
          obtain ⟨b1, b2, b3⟩ := pushGroupLists_nav h.spineEnd a2 hst2
          simp only [hd, hst1, hst2, bind, Except.bind, appendGroup, b2.sgHere]
          exact ⟨_, rfl⟩
        · cases h2

/-! ## single steps -/

theorem retryStack_eq (reader : MigLookup) (loc : AhbLocation) (x : AhbLocation) (l : List AhbLocation) :
    retryStack reader loc (x :: l) = match reader loc with
      | .ok s => .ok s
      | .error .valueError => .ok none
      | .error e => .error e := by
  induction l generalizing x with
  | nil =>
    rw [retryStack]
    cases hr : reader loc with
    | ok s => rfl
    | error e => cases e <;> rfl
  | cons y l ih =>
    rw [retryStack]
    rw [ih]
    cases hr : reader loc with
    | ok s => rfl
    | error e => cases e <;> rfl

theorem lookupStack_succeeds_iff {reader : MigLookup} {r : Run} (hne : r.2 ≠ []) :
    (∃ v, lookupStack reader r.1 r.2 = .ok v) ↔ Responds reader r.location ∧
      (reader r.location = .error .valueError → ∀ x y rest, r.2 = x :: y :: rest → Responds reader x.2) := by
  obtain ⟨key, group⟩ := r
  match group, hne with
  | [(l, loc)], _ =>
    simp only [lookupStack, List.length_singleton, if_true, Run.location, Responds]
    cases hr : reader loc with
    | ok s => simp
    | error e => cases e <;> simp
  | (l, loc) :: y :: ys, _ =>
    simp only [lookupStack, List.length_cons, Nat.add_eq_right, Nat.add_one_ne_zero, if_false, Run.location, Responds]
    cases hr : reader key with
    | ok s => simp
    | error e =>
      cases e <;> try simp
      rw [retryStack_eq]
      cases hr2 : reader loc with
      | ok s => simp
      | error e => cases e <;> simp

/-- what holds for every run of `determine_locations` -/
structure Run.Sound (r : Run) : Prop where
  ne : r.2 ≠ []
  layers : r.location.layers ≠ []
  pseudo : r.location.pseudo = false
  same : ∀ l ∈ r.lines, l.dataElement = r.1.dataElementId
  digits : NoneOr IsFourDigits r.1.dataElementId
  valid : ∀ l ∈ r.lines, NoneOr NotBlank l.ahbExpression

theorem Run.Sound.lines_ne {r : Run} (h : r.Sound) : r.lines ≠ [] := by
  simpa [Run.lines] using h.ne

theorem NotBlank.ne_nil {s : PyStr} (h : NotBlank s) : s ≠ [] := by
  rintro rfl
  obtain ⟨c, hc, _⟩ := h
  cases hc

theorem Run.Sound.truthy {r : Run} (h : r.Sound) {l : AhbLine} (hl : l ∈ r.lines) :
    truthy l.ahbExpression = true ↔ l.ahbExpression ≠ none := by
  cases he : l.ahbExpression with
  | none => simp [Verif.truthy]
  | some e =>
    have := (h.valid l hl e he).ne_nil
    cases e with
    | nil => exact absurd rfl this
    | cons c e => simp [Verif.truthy]

theorem merge_succeeds_iff {r : Run} (h : r.Sound) (hd : r.hasDataElement = true) (_hx : r.hasExpression = true)
    (stk : Option EdifactStack) :
    (∃ de, mergeLinesWithSameDataElement r.lines stk = .ok de) ↔
      (∀ first, r.lines.head? = some first → first.valuePoolEntry ≠ none →
        ∀ l ∈ r.lines, l.ahbExpression ≠ none → l.name ≠ none ∧ SomeOf AcceptableQualifier l.valuePoolEntry) ∧
      (∀ first, r.lines.head? = some first → first.valuePoolEntry = none → first.ahbExpression ≠ none) := by
  obtain ⟨d, hdd⟩ : ∃ d, r.1.dataElementId = some d := by
    obtain ⟨l, hl, hs⟩ := List.any_eq_true.1 hd
    rw [h.same l hl] at hs
    exact Option.isSome_iff_exists.1 hs
  constructor
  · rintro ⟨de, hde⟩
    obtain ⟨_, first, rest, d', hl, _, _, _, _, _, h1, h2⟩ := merge_ok hde
    constructor
    · intro f hf hv l hlm he
      rw [hl] at hf
      cases hf
      obtain ⟨_, es, _, hes⟩ := h1 hv
      have hm : l ∈ r.lines.filter fun l => truthy l.ahbExpression := List.mem_filter.2 ⟨hlm, (h.truthy hlm).2 he⟩
      have hall := mergeEntries_ok hes
      obtain ⟨i, hi⟩ := List.mem_iff_getElem?.1 hm
      have hlen := hall.length_eq
      have hi' : i < es.length := by rw [← hlen]; exact (List.getElem?_eq_some_iff.1 hi).1
      have := List.forall₂_iff_get.1 hall
      obtain ⟨a1, ⟨n, a2, _⟩, _, _, a5⟩ := this.2 i (List.getElem?_eq_some_iff.1 hi).1 hi'
      rw [List.get_eq_getElem, (List.getElem?_eq_some_iff.1 hi).2] at a1 a2
      exact ⟨by rw [a2]; simp, _, a1, (isEdifactQualifier_iff _).1 a5⟩
    · intro f hf hv
      rw [hl] at hf
      cases hf
      obtain ⟨_, e, _, he, _⟩ := h2 hv
      rw [he]; simp
  · rintro ⟨h1, h2⟩
    cases hl : r.lines with
    | nil => exact absurd hl h.lines_ne
    | cons first rest =>
      refine C18_merge_succeeds first rest stk d (fun l hlm => ?_) (h.digits d hdd) (fun hv l hlm e he hne => ?_) (fun hv => ?_)
      · rw [← hl] at hlm; rw [h.same l hlm, hdd]
      · rw [← hl] at hlm
        obtain ⟨a, b⟩ := h1 first (by rw [hl]; rfl) hv l hlm (by rw [he]; simp)
        exact ⟨h.valid l hlm e he, a, (someOf_qualifier _).2 b⟩
      · have := h2 first (by rw [hl]; rfl) hv
        obtain ⟨e, he⟩ := Option.ne_none_iff_exists'.1 this
        exact ⟨e, he, h.valid first (by rw [hl]; simp) e he⟩

/-- the expression of a valid line is not blank after stripping -/
theorem isNotBlank_strip {e : PyStr} (h : NotBlank e) : isNotBlank (some (strip e)) = true := by
  rw [isNotBlank_iff, strip_strip]
  exact (strip_ne_nil e).2 h

theorem segmentGroupNew_succeeds {d : Option PyStr} {x : PyStr} (i s gs) (h : isNotBlank (some x) = true) :
    SegmentGroup.new d (some x) i s gs = .ok (.mk d x i s gs) := by
  simp [SegmentGroup.new, checkSegmentLevelExpression, h, bind, Except.bind, pure, Except.pure]

theorem segmentNew_succeeds {d : Option PyStr} {x : PyStr} (i ds sn) (h : isNotBlank (some x) = true) :
    Segment.new d (some x) i ds sn none = .ok ⟨d, x, i, ds, sn, none⟩ := by
  have : optMatches segmentId5Re none = true := rfl
  simp [Segment.new, checkSegmentLevelExpression, h, this, bind, Except.bind, pure, Except.pure]

theorem createSegment_succeeds_iff {reader : MigLookup} {posStr} {r : Run} (h : r.Sound) {first : AhbLine} {st : DeepState} :
    (∃ st', createSegment posStr r.lines first r.location (r.stack reader) st = .ok st') ↔
      (r.firstExpression ≠ none → st.segmentsHere ≠ none) := by
  unfold createSegment
  rw [firstExpression_eq]
  cases hel : r.lines.find? fun l => truthy l.ahbExpression with
  | none => simp
  | some el =>
    have hmem := List.mem_of_find?_eq_some hel
    have ht := List.find?_some hel
    obtain ⟨e, he⟩ := Option.ne_none_iff_exists'.1 ((h.truthy hmem).1 ht)
    simp only [he, Option.bind_some, ne_eq, reduceCtorEq, not_false_eq_true, forall_const]
    rw [segmentNew_succeeds _ _ _ ((notBlank_iff e).2 (h.valid el hmem e he))]
    simp only [bind, Except.bind]
    cases st.segmentsHere with
    | none => simp
    | some p => simp [pure, Except.pure]

/-- the opening of a group by one run -/
def openedBy (reader : MigLookup) (used : List PyStr) (previous : Option (List AhbLocationLayer)) (r : Run) : List Opening :=
  if r.isHeading || r.hasDataElement then []
  else (r.openedPath reader used).toList.map fun path => ⟨path, r.location.layers, previous⟩

theorem openings_cons (reader : MigLookup) (used previous) (r : Run) (rest : List Run) :
    openings reader used previous (r :: rest) = openedBy reader used previous r ++
      openings reader (r.usedAfter reader used) (if r.isUsed then some r.location.layers else previous) rest := rfl

/-- what a run needs of the state -/
def NavOk (reader : MigLookup) (posStr : AhbLocation → PyStr) (st : DeepState) (r : Run) : Prop :=
  match st.sgHere with
  | none => StartsWithRoot (r.created reader posStr st.usedStacks)
  | some c => ∀ o ∈ openedBy reader st.usedStacks (st.previousPosition.map AhbLocation.layers) r,
      ∃ previous n, o.previous = some previous ∧ depthAfter? c.length previous o.layers = some n

theorem maybeOpenGroup_succeeds_iff {reader : MigLookup} {posStr} {r : Run} (h : r.Sound) {first last : AhbLine} {st : DeepState}
    (hinv : st.Inv) (hprev : ∀ x, st.previousPosition = some x → x.pseudo = false)
    (hh : r.isHeading = false) (hd : r.hasDataElement = false)
    (h1 : r.lines.head? = some first) (h2 : r.lines.getLast? = some last) :
    (∃ st', maybeOpenGroup first last r.location (r.stack reader) st = .ok st' ∧
      ∃ st'', createSegment posStr r.lines first r.location (r.stack reader) st' = .ok st'') ↔
      NavOk reader posStr st r := by
  obtain ⟨layer, hlayer⟩ : ∃ layer, r.location.layers.getLast? = some layer := by
    cases hl : r.location.layers.getLast? with
    | none => exact absurd (List.getLast?_eq_none_iff.1 hl) h.layers
    | some l => exact ⟨l, rfl⟩
  have hpl : pyLast r.location.layers = .ok layer := by simp [pyLast, hlayer]
  obtain ⟨o1, o2⟩ := opensGroup_iff (reader := reader) (used := st.usedStacks) h1 h2 hlayer
  have hfirst : first ∈ r.lines := List.mem_of_mem_head? h1
  unfold NavOk
  simp only [openedBy, hh, hd, Run.created, Bool.false_or, Bool.false_eq_true, if_false]
  simp only [maybeOpenGroup, hpl, bind, Except.bind]
  cases hop : opensGroup st.usedStacks first last layer (r.stack reader) with
  | false =>
    have hno := o2 hop
    simp only [Bool.false_eq_true, if_false, pure, Except.pure, Except.ok.injEq, exists_eq_left', createSegment_succeeds_iff h]
    rcases hinv with he | ⟨_, p, init, g0, ss, sg, hb, _⟩
    · have hs := he.segmentsHere
      rw [he.sgHere, hs]
      simp only [Run.openedGroup, hno, Option.toList_none, List.nil_append, StartsWithRoot, Run.createdSegment, h1]
      cases r.firstExpression <;> simp
    · rw [hb.sgHere, hb.segmentsHere]
      simp [hno]
  | true =>
    obtain ⟨s, hs, hpath, hnot, e, he⟩ := o1 hop
    have hnb := h.valid first hfirst e he
    simp only [if_true, hs, he, Option.map_some, segmentGroupNew_succeeds _ _ _ (isNotBlank_strip hnb), Option.toList_some]
    rcases hinv with hem | ⟨hroot, p, init, g0, ss, sg, hb, _⟩
    · have hgoal : ∀ (P : Prop) (Q : GroupPath → Prop), (match st.sgHere with | none => P | some c => Q c) = P := by
        intro P Q; rw [hem.sgHere]
      rw [hgoal]
      simp only [Run.openedGroup, hpath, h1, Option.toList_some, StartsWithRoot, List.singleton_append, List.head?_cons]
      constructor
      · rintro ⟨st', hins, _⟩ x hx
        obtain ⟨hdisc, _⟩ := insertGroup_empty (by exact hem.lines) (by exact hem.parents) (by exact hem.sgHere) hins
        cases hx
        simp only [SegmentGroup.discriminator] at hdisc
        rw [hdisc]
        exact ⟨_, _, rfl⟩
      · intro hx
        obtain ⟨e', i', hg⟩ := hx _ rfl
        have hr : s.toJsonPath = rootPath := by
          simp only [DocItem.group.injEq, Option.some.injEq] at hg
          exact hg.1
        refine ⟨_, by rw [insertGroup, if_pos (by simp [SegmentGroup.discriminator, hr])], ?_⟩
        rw [← hs, createSegment_succeeds_iff h]
        simp
    · have hgoal : ∀ (P : Prop) (Q : GroupPath → Prop), (match st.sgHere with | none => P | some c => Q c) =
          Q (p ++ [init.length]) := by
        intro P Q; rw [hb.sgHere]
      rw [hgoal]
      have hne : s.toJsonPath ≠ rootPath := by rintro heq; exact hnot (heq ▸ hroot)
      have hb' : DeepState.BuiltG { st with usedStacks := st.usedStacks ++ [s.toJsonPath] } p init g0 (ss ++ [sg]) :=
        ⟨hb.spine, hb.noGroups, hb.segments, hb.sgHere, hb.segmentsHere, hb.parents⟩
      have hiff := insertGroup_succeeds_iff hb' (g := .mk (some s.toJsonPath) (strip e) first.index (some []) (some []))
        (pos := r.location) (by simpa [SegmentGroup.discriminator] using hne) h.pseudo hprev
      simp only [hpath, Option.toList_some, List.map_singleton, List.mem_singleton, forall_eq, List.length_append,
        List.length_singleton]
      rw [← hiff]
      constructor
      · rintro ⟨st', hins, _⟩; exact ⟨st', hins⟩
      · rintro ⟨st', hins⟩
        refine ⟨st', hins, ?_⟩
        rw [← hs, createSegment_succeeds_iff h]
        obtain ⟨_, n, l, _, hI, _⟩ := insertGroup_built hb' (by simpa [SegmentGroup.discriminator] using hne) hins
        rw [hI.segmentsHere]
        simp

theorem deepStep_succeeds_iff {reader : MigLookup} {posStr} {r : Run} (h : r.Sound) {st : DeepState}
    (hinv : st.Inv) (hprev : ∀ x, st.previousPosition = some x → x.pseudo = false) :
    (∃ st', deepStep reader posStr st r = .ok st') ↔ (r.isHeading = false → r.Fine reader) ∧ NavOk reader posStr st r := by
  have hlines : r.2.map Prod.fst = r.lines := rfl
  have hheading : r.isHeading = !(r.lines.any fun l => l.segmentCode.isSome) := by
    simp [Run.isHeading, List.not_any_eq_all_not]
  unfold deepStep
  simp only [hlines, ← hheading]
  cases hh : r.isHeading with
  | true =>
    simp only [if_true, Except.ok.injEq, exists_eq', Bool.true_eq_false, false_implies, true_and, true_iff]
    unfold NavOk
    split
    · simp [Run.created, hh, StartsWithRoot]
    · simp [openedBy, hh]
  | false =>
    simp only [Bool.false_eq_true, if_false, forall_const, bind, Except.bind]
    have hlk := lookupStack_succeeds_iff (reader := reader) h.ne
    cases hv : lookupStack reader r.1 r.2 with
    | error e =>
      rw [hv] at hlk
      simp only [reduceCtorEq, exists_false, false_iff, not_and]
      intro hf
      obtain ⟨_, hv2⟩ := hlk.2 ⟨hf.location, hf.firstLocation⟩
      cases hv2
    | ok v =>
      have hL := hlk.1 ⟨v, hv⟩
      obtain ⟨e1, e2⟩ := lookupStack_ok (pos := v.1) (stk := v.2) h.ne hv
      simp only [e1, e2]
      have hd' : (r.lines.any fun l => l.dataElement.isSome) = r.hasDataElement := rfl
      rw [hd']
      cases hd : r.hasDataElement with
      | true =>
        simp only [if_true]
        have hx' : (r.lines.any fun l => l.ahbExpression.isSome) = r.hasExpression := rfl
        unfold dataElementStep
        rw [hx']
        cases hx : r.hasExpression with
        | false =>
          simp only [Bool.not_false, if_true, Except.ok.injEq, exists_eq', true_iff]
          have hnone : ∀ l ∈ r.lines, l.ahbExpression = none := by
            simpa [Run.hasExpression] using hx
          refine ⟨⟨hL.1, hL.2, fun _ _ _ _ l hl hne => absurd (hnone l hl) hne, fun _ _ _ _ hx2 => ?_, fun hd2 => ?_⟩, ?_⟩
          · rw [hx] at hx2; cases hx2
          · rw [hd] at hd2; cases hd2
          · unfold NavOk
            split
            · simp [Run.created, Run.createdDataElement, hh, hd, hx, StartsWithRoot]
            · simp [openedBy, hd]
        | true =>
          simp only [Bool.not_true, Bool.false_eq_true, if_false, bind, Except.bind]
          have hm := merge_succeeds_iff h hd hx (r.stack reader)
          cases hde : mergeLinesWithSameDataElement r.lines (r.stack reader) with
          | error e =>
            rw [hde] at hm
            simp only [reduceCtorEq, exists_false, false_iff, not_and]
            intro hf
            obtain ⟨_, hv2⟩ := hm.2 ⟨hf.pool hd, fun first a b => hf.freeText hd first a b hx⟩
            cases hv2
          | ok de =>
            have hM := hm.1 ⟨de, hde⟩
            have hfine : r.Fine reader := ⟨hL.1, hL.2, fun _ => hM.1, fun _ first a b _ => hM.2 first a b, fun hd2 => by
              rw [hd] at hd2; cases hd2⟩
            simp only [hfine, true_and]
            unfold NavOk
            rcases hinv with hem | ⟨_, p, init, g0, ss, sg, hb, hdeh⟩
            · simp [hem.dataElementsHere, hem.sgHere, Run.created, Run.createdDataElement, hh, hd, hx, hde, StartsWithRoot]
            · simp [hdeh, hb.sgHere, openedBy, hd, pure, Except.pure]
      | false =>
        simp only [Bool.false_eq_true, if_false]
        unfold segmentStep
        cases hl : r.lines with
        | nil => exact absurd hl h.lines_ne
        | cons first rest =>
          obtain ⟨last, hlast⟩ : ∃ last, r.lines.getLast? = some last := by
            cases hq : r.lines.getLast? with
            | none => exact absurd (List.getLast?_eq_none_iff.1 hq) h.lines_ne
            | some l => exact ⟨l, rfl⟩
          have hf : r.lines.head? = some first := by rw [hl]; rfl
          have hlm : last ∈ r.lines := List.mem_of_getLast? hlast
          have hnd : last.dataElement = none := by
            have : ∀ l ∈ r.lines, l.dataElement = none := by simpa [Run.hasDataElement] using hd
            exact this last hlm
          have hiff := maybeOpenGroup_succeeds_iff (reader := reader) (posStr := posStr) h hinv hprev hh hd hf hlast
          rw [← hl]
          have hpl : pyLast r.lines = .ok last := by simp [pyLast, hlast]
          simp only [hf, hpl, bind, Except.bind, hnd, Option.isSome_none, Bool.false_eq_true, if_false]
          constructor
          · rintro ⟨st', hst⟩
            split at hst
            · cases hst
            · rename_i st1 hst1
              split at hst
              · cases hst
              · rename_i hsc
                refine ⟨⟨hL.1, hL.2, fun hd2 => ?_, fun hd2 => ?_, fun _ l hl2 => ?_⟩, hiff.1 ⟨st1, hst1, st', hst⟩⟩
                · rw [hd] at hd2; cases hd2
                · rw [hd] at hd2; cases hd2
                · rw [hlast] at hl2
                  cases hl2
                  intro hn
                  simp [hn] at hsc
          · rintro ⟨hfine, hnav⟩
            obtain ⟨st1, hst1, st', hst⟩ := hiff.2 hnav
            have := hfine.segment hd last hlast
            refine ⟨st', ?_⟩
            rw [hst1]
            dsimp only
            rw [if_neg (by simpa [Option.isNone_iff_eq_none] using this)]
            exact hst

/-! ## all runs -/

/-- what all runs need of the state -/
def AllFit (reader : MigLookup) (posStr : AhbLocation → PyStr) (st : DeepState) (runs : List Run) : Prop :=
  match st.sgHere with
  | none => StartsWithRoot (createdItems reader posStr st.usedStacks runs) ∧
      OpeningsFit 1 (openings reader st.usedStacks (st.previousPosition.map AhbLocation.layers) runs).tail
  | some c => OpeningsFit c.length (openings reader st.usedStacks (st.previousPosition.map AhbLocation.layers) runs)

theorem allFit_cons {reader : MigLookup} {posStr} {r : Run} {runs : List Run} (h : r.Sound) {st st' : DeepState}
    (hinv : st.Inv) (hprev : ∀ x, st.previousPosition = some x → x.pseudo = false)
    (hst : deepStep reader posStr st r = .ok st') :
    AllFit reader posStr st (r :: runs) ↔ AllFit reader posStr st' runs := by
  obtain ⟨_, h2, h3, ⟨hp, hnav⟩, _⟩ := deepStep_ok hinv hst
  have hok := ((deepStep_succeeds_iff (posStr := posStr) (reader := reader) h hinv hprev).1 ⟨st', hst⟩).2
  have hm : st'.previousPosition.map AhbLocation.layers =
      if r.isUsed then some r.location.layers else st.previousPosition.map AhbLocation.layers := by
    rw [hp]; split <;> rfl
  unfold AllFit
  rw [h2, hm, openings_cons, createdItems]
  unfold NavOk at hok
  rcases hnav with ⟨hno, ha, hs⟩ | ⟨hb, hu, path, hpath, q, n, hcase, ha, hs⟩
  · have hnil : openedBy reader st.usedStacks (st.previousPosition.map AhbLocation.layers) r = [] := by
      unfold openedBy
      rcases hno with hno | hno
      · rw [if_pos hno]
      · rw [hno]; simp
    rw [hs, hnil, List.nil_append]
    cases hc : st.sgHere with
    | some c => rfl
    | none =>
      rw [hc] at hok
      dsimp only at hok ⊢
      have hcr : r.created reader posStr st.usedStacks = [] := by
        cases hcr : r.created reader posStr st.usedStacks with
        | nil => rfl
        | cons x xs =>
          obtain ⟨e, i, rfl⟩ := hok x (by rw [hcr]; rfl)
          exfalso
          unfold Run.created at hcr
          split at hcr
          · cases hcr
          · rename_i hh
            split at hcr
            · unfold Run.createdDataElement at hcr
              split at hcr
              · split at hcr <;> simp at hcr
              · cases hcr
            · rename_i hd
              have hop : r.openedPath reader st.usedStacks = none := by
                rcases hno with hno | hno
                · simp [hh, hd] at hno
                · exact hno
              simp only [Run.openedGroup, hop, Option.toList_none, List.nil_append, Run.createdSegment] at hcr
              split at hcr <;> simp at hcr
      rw [hcr, List.nil_append]
  · have hone : openedBy reader st.usedStacks (st.previousPosition.map AhbLocation.layers) r =
        [⟨path, r.location.layers, st.previousPosition.map AhbLocation.layers⟩] := by
      simp [openedBy, hb, hpath]
    rw [hs, hone, List.singleton_append]
    rw [hone] at hok
    have hlay := hcase.layers h.pseudo hprev
    cases hc : st.sgHere with
    | none =>
      rw [hc] at hok hlay
      dsimp only at hok ⊢
      rcases hlay with ⟨_, rfl⟩ | ⟨c, p, m, hcn, _⟩
      · simp only [List.nil_append, List.length_singleton, List.tail_cons, and_iff_right_iff_imp]
        intro _ x hx
        refine hok x ?_
        cases hcr : r.created reader posStr st.usedStacks with
        | nil =>
          exfalso
          simp only [Bool.or_eq_false_iff] at hb
          simp only [Run.created, hb.1, hb.2, Bool.false_eq_true, if_false, Run.openedGroup, hpath] at hcr
          cases hf : r.lines.head? with
          | none => exact h.lines_ne (List.head?_eq_none_iff.1 hf)
          | some f => rw [hf] at hcr; simp at hcr
        | cons y ys => rw [hcr] at hx; exact hx
      · cases hcn
    | some c =>
      rw [hc] at hok hlay
      dsimp only at hok ⊢
      rcases hlay with ⟨hcn, _⟩ | ⟨c', p, m, hcn, hpm, hq, hm'⟩
      · cases hcn
      · cases hcn
        obtain ⟨p', k, hp', hk⟩ := hok _ (List.mem_singleton.2 rfl)
        dsimp only at hp' hk
        rw [hpm] at hp'
        cases hp'
        have hlen : k = (q ++ [n]).length := by
          simp only [depthAfter?, sharedLayers_eq] at hk
          have hpre := (lcp_prefix_left p r.location.layers).length_le
          rcases hm' with ⟨hsub, rfl⟩ | ⟨hns, hup, rfl⟩
          · rw [if_pos (by rw [(lcp_eq_left_iff).2 hsub]; omega)] at hk
            cases hk
            rw [hq]
            simp
          · have hne : p.length - (lcp p r.location.layers).length ≠ 0 := by
              intro h0
              exact hns (lcp_eq_left_iff.1 (by omega))
            rw [if_neg hne] at hk
            split at hk
            · rename_i hcond
              cases hk
              rw [hq, List.length_append, List.length_take, List.length_singleton]
              omega
            · cases hk
        rw [OpeningsFit]
        constructor
        · rintro ⟨p2, k2, e1, e2, e3⟩
          dsimp only at e1 e2
          rw [hpm] at e1
          cases e1
          rw [hk] at e2
          cases e2
          rw [← hlen]; exact e3
        · intro h4
          exact ⟨p, k, hpm, hk, by rw [hlen]; exact h4⟩

theorem deepFold_succeeds_iff {reader : MigLookup} {posStr} (runs : List Run) (hruns : ∀ r ∈ runs, r.Sound) {st : DeepState}
    (hinv : st.Inv) (hprev : ∀ x, st.previousPosition = some x → x.pseudo = false) :
    (∃ st', runs.foldlM (deepStep reader posStr) st = .ok st') ↔
      (∀ r ∈ runs, r.isHeading = false → r.Fine reader) ∧ AllFit reader posStr st runs := by
  induction runs generalizing st with
  | nil =>
    simp only [List.foldlM_nil, pure, Except.pure, Except.ok.injEq, exists_eq', List.not_mem_nil, false_implies,
      implies_true, true_and, true_iff]
    unfold AllFit
    split
    · exact ⟨by simp [StartsWithRoot, createdItems], trivial⟩
    · trivial
  | cons r runs ih =>
    have hr := hruns r (by simp)
    have hstep := deepStep_succeeds_iff (posStr := posStr) (reader := reader) hr hinv hprev
    rw [List.foldlM_cons]
    cases hst : deepStep reader posStr st r with
    | error e =>
      simp only [bind, Except.bind, reduceCtorEq, exists_false, false_iff, not_and]
      intro hfine hfit
      rw [hst] at hstep
      refine absurd (hstep.2 ⟨hfine r (by simp), ?_⟩) (by simp)
      unfold NavOk
      unfold AllFit at hfit
      cases hc : st.sgHere with
      | none =>
        rw [hc] at hfit
        intro x hx
        refine hfit.1 x ?_
        rw [createdItems, List.head?_append, hx]
        rfl
      | some c =>
        rw [hc] at hfit
        dsimp only at hfit ⊢
        rw [openings_cons] at hfit
        intro o ho
        unfold openedBy at ho hfit
        split at ho
        · cases ho
        · rename_i hb
          rw [if_neg hb] at hfit
          cases hp : r.openedPath reader st.usedStacks with
          | none => rw [hp] at ho; simp at ho
          | some path =>
            rw [hp] at ho hfit
            simp only [Option.toList_some, List.map_singleton, List.mem_singleton] at ho
            obtain ⟨p, k, h1, h2, _⟩ := hfit
            exact ⟨p, k, by rw [ho]; exact h1, by rw [ho]; exact h2⟩
    | ok st1 =>
      simp only [bind, Except.bind]
      obtain ⟨h1, _, _, ⟨hp, _⟩, _⟩ := deepStep_ok hinv hst
      have hprev1 : ∀ p, st1.previousPosition = some p → p.pseudo = false := by
        intro p hp'
        rw [hp] at hp'
        split at hp'
        · cases hp'; exact hr.pseudo
        · exact hprev p hp'
      rw [ih (fun r hr => hruns r (by simp [hr])) h1 hprev1, allFit_cons hr hinv hprev hst, List.forall_mem_cons]
      have := (hstep.1 ⟨st1, hst⟩).1
      constructor
      · rintro ⟨a, b⟩; exact ⟨⟨fun hh => this hh, a⟩, b⟩
      · rintro ⟨⟨_, a⟩, b⟩; exact ⟨a, b⟩

/-! ## the runs of `determine_locations` -/

theorem appendLocation_digits {st line seg layers st'} (h : appendLocation st line seg layers = .ok st')
    (hall : ∀ x ∈ st.result, NoneOr IsFourDigits x.2.dataElementId) : ∀ x ∈ st'.result, NoneOr IsFourDigits x.2.dataElementId := by
  simp only [appendLocation, bind, Except.bind] at h
  split at h
  · cases h
  · rename_i loc hloc
    cases h
    intro x hx
    rcases List.mem_append.1 hx with hx | hx
    · exact hall x hx
    · rw [List.mem_singleton.1 hx]
      unfold AhbLocation.new at hloc
      split at hloc
      · cases hloc
      · split at hloc
        · cases hloc
        · split at hloc
          · cases hloc
          · rename_i hd
            cases hloc
            exact (optMatches_iff dataElement4Re_iff _).1 (by simpa using hd)

theorem locStep_digits {sgh st it st'} (h : locStep sgh st it = .ok st')
    (hall : ∀ x ∈ st.result, NoneOr IsFourDigits x.2.dataElementId) : ∀ x ∈ st'.result, NoneOr IsFourDigits x.2.dataElementId := by
  obtain ⟨⟨line, c⟩, seg, qual⟩ := it
  simp only [locStep, bind, Except.bind] at h
  split at h
  · cases h
  · cases c with
    | stay => exact appendLocation_digits h hall
    | moveToNeighbourSameKey =>
      dsimp only at h
      repeat' split at h
      all_goals first | cases h | exact appendLocation_digits h hall
    | diveIntoSubGroup =>
      dsimp only at h
      repeat' split at h
      all_goals first | cases h | exact appendLocation_digits h hall
    | leaveToParentAndDive =>
      dsimp only at h
      repeat' split at h
      all_goals first | cases h | exact appendLocation_digits h hall
    | leaveToParent => cases h
    | moveToNeighbourDifferentKey => cases h; exact hall

theorem located_digits {sgh lines located} (h : determineLocations sgh lines = .ok located) :
    ∀ x ∈ located, NoneOr IsFourDigits x.2.dataElementId := by
  rw [determineLocations_eq] at h
  simp only [bind, Except.bind] at h
  split at h
  · cases h
  · split at h
    · cases h
    · rename_i st hst
      cases h
      have : ∀ (l : List ((AhbLine × Change) × Option PyStr × Option PyStr)) (s s' : LocState),
          l.foldlM (locStep sgh) s = .ok s' → (∀ x ∈ s.result, NoneOr IsFourDigits x.2.dataElementId) →
          ∀ x ∈ s'.result, NoneOr IsFourDigits x.2.dataElementId := by
        intro l
        induction l with
        | nil => intro s s' hs hall; cases hs; exact hall
        | cons it l ih =>
          intro s s' hs hall
          rw [List.foldlM_cons] at hs
          simp only [bind, Except.bind] at hs
          split at hs
          · cases hs
          · rename_i s1 hs1
            exact ih s1 s' hs (locStep_digits hs1 hall)
      exact this _ _ _ hst (by simp)

theorem runs_sound {sgh : Sgh} {lines : List AhbLine} {located} (h : determineLocations sgh lines = .ok located)
    (hvalid : ∀ l ∈ lines, NoneOr NotBlank l.ahbExpression) : ∀ r ∈ runsOf located, r.Sound := by
  intro r hr
  obtain ⟨pre, post, hl, hne, hsame, _⟩ := run_slice h r hr
  have hne2 : r.2 ≠ [] := by simpa [Run.lines] using hne
  obtain ⟨_, hk⟩ := groupBy_keys _ _ r hr
  obtain ⟨hlen, htr⟩ := determineLocations_trace h
  have hlay : ∀ x ∈ located, x.2.layers ≠ [] := by
    intro x hx
    obtain ⟨n, hn, rfl⟩ := List.getElem_of_mem hx
    obtain ⟨layers, h1, h2, _⟩ := htr n _ (List.getElem?_eq_getElem (by omega))
    rw [List.getElem?_eq_getElem hn, Option.some.injEq] at h1
    rw [h1]
    exact h2
  obtain ⟨x, hx⟩ := List.exists_mem_of_ne_nil _ hne2
  have hx' := runsOf_mem hr x hx
  refine ⟨hne2, ?_, runsOf_pseudo h r hr, hsame, ?_, fun l hlm => hvalid l (by rw [hl]; simp [hlm])⟩
  · unfold Run.location
    split
    · rename_i l loc heq
      exact hlay (l, loc) (runsOf_mem hr _ (by rw [heq]; simp))
    · rw [← hk x hx]
      exact hlay x hx'
  · rw [← hk x hx]
    exact located_digits h x hx'

/-! ## one layer at a time -/

theorem OneLayerAtATime.fit (o : Opening) (os : List Opening)
    (h : ∀ n a b, (o :: os)[n]? = some a → (o :: os)[n + 1]? = some b →
      b.previous = some a.layers ∧
      ∃ outer x, outer ≠ [] ∧ b.layers = outer ++ [x] ∧ outer <+: a.layers ∧ ¬ b.layers <+: a.layers) :
    OpeningsFit o.layers.length os := by
  induction os generalizing o with
  | nil => trivial
  | cons b os ih =>
    obtain ⟨hp, outer, x, hne, hb, hpre, hno⟩ := h 0 o b rfl rfl
    have hlcp : (lcp o.layers b.layers).length = outer.length := by
      have h7 := (lcp_greatest hpre (b := b.layers) ⟨[x], hb.symm⟩).length_le
      have h8 := (lcp_prefix_right o.layers b.layers).length_le
      by_cases h9 : (lcp o.layers b.layers).length = b.layers.length
      · exact absurd ((lcp_prefix_right o.layers b.layers).eq_of_length h9 ▸ lcp_prefix_left _ _) hno
      · rw [hb, List.length_append] at h8 h9
        simp only [List.length_singleton] at h8 h9
        rw [← hb] at h8 h9
        omega
    have hle := hpre.length_le
    have hlen : b.layers.length = outer.length + 1 := by rw [hb]; simp
    have h0 : outer.length ≠ 0 := by simpa using hne
    refine ⟨o.layers, b.layers.length, hp, ?_, ih b fun n a c ha hc => h (n + 1) a c (by simpa using ha) (by simpa using hc)⟩
    simp only [depthAfter?, sharedLayers_eq, hlcp, hlen]
    split
    · congr 1; omega
    · rw [if_pos ⟨h0, by omega, by omega⟩]
      congr 1; omega

/-! ## exceptions -/

/-- the exceptions of a step: some exceptions of the code, or what the MIG reader raises -/
def StepExc (reader : MigLookup) (e : Exc) : Prop :=
  e = .valueError ∨ e = .typeError ∨ e = .attributeError ∨ e = .assertionError ∨ e = .unboundLocalError ∨ ∃ l, reader l = .error e

section
variable {reader : MigLookup}

theorem StepExc.vlu : StepExc reader .valueError := .inl rfl
theorem StepExc.typ : StepExc reader .typeError := .inr (.inl rfl)
theorem StepExc.att : StepExc reader .attributeError := .inr (.inr (.inl rfl))
theorem StepExc.ass : StepExc reader .assertionError := .inr (.inr (.inr (.inl rfl)))
theorem StepExc.unb : StepExc reader .unboundLocalError := .inr (.inr (.inr (.inr (.inl rfl))))


theorem raises_reader (l : AhbLocation) : Raises (StepExc reader) (reader l) :=
  fun _ h => .inr (.inr (.inr (.inr (.inr ⟨l, h⟩))))

theorem raises_retryStack (loc : AhbLocation) : ∀ l, Raises (StepExc reader) (retryStack reader loc l)
  | [] => .ok _
  | x :: l => by
    rw [retryStack_eq]
    intro e he
    have hr := raises_reader (reader := reader) loc
    split at he
    · cases he
    · cases he
    · rename_i e' _ hr'
      cases he
      exact hr _ hr'

theorem raises_lookupStack (key : AhbLocation) (g : List (AhbLine × AhbLocation)) :
    Raises (StepExc reader) (lookupStack reader key g) := by
  unfold lookupStack
  dsimp only
  split
  · exact .ok _
  · exact .ite ((raises_retryStack _ _).bind fun _ => .ok _) (.ok _)
  · rename_i e _ he
    exact .error (raises_reader _ e he)

theorem raises_checkSegmentLevelExpression (x : Option PyStr) : Raises (StepExc reader) (checkSegmentLevelExpression x) := by
  rcases checkExpression_cases x with ⟨_, _, _, h⟩ | ⟨_, h⟩ | ⟨_, h⟩ <;> rw [h]
  · exact .ok _
  · exact .error .typ
  · exact .error .vlu

theorem raises_groupNew (d e i s g) : Raises (StepExc reader) (SegmentGroup.new d e i s g) :=
  (raises_checkSegmentLevelExpression _).bind fun _ => .ok _

theorem raises_segmentNew (d e i de sn sid) : Raises (StepExc reader) (Segment.new d e i de sn sid) :=
  (raises_checkSegmentLevelExpression _).bind fun _ => .ite (.error .vlu) (.ok _)

theorem raises_poolEntryNew (q m e) : Raises (StepExc reader) (ValuePoolEntry.new q m e) := by
  unfold ValuePoolEntry.new
  intro x hx
  repeat' split at hx
  all_goals first | cases hx; done | (cases hx; first | exact .vlu | exact .typ)

theorem raises_dataElementBase (d e) : Raises (StepExc reader) (DataElement.checkBase d e) := by
  rcases checkBase_cases d e with ⟨_, _, _, _, h⟩ | ⟨_, _, h⟩ | ⟨_, h⟩ <;> rw [h]
  · exact .ok _
  · exact .error .typ
  · exact .error .vlu

theorem raises_mergeEntries : ∀ l, Raises (StepExc reader) (mergeEntries l)
  | [] => .ok _
  | l :: ls => by
    unfold mergeEntries
    refine .ite (raises_mergeEntries ls) ?_
    split
    · exact .error .att
    · exact (raises_poolEntryNew _ _ _).bind fun _ => (raises_mergeEntries ls).bind fun _ => .ok _

theorem raises_merge (l : AhbLine) (ls : List AhbLine) (stk) : Raises (StepExc reader) (mergeLinesWithSameDataElement (l :: ls) stk) := by
  unfold mergeLinesWithSameDataElement
  refine .ite (.error .vlu) ?_
  dsimp only
  refine .ite ?_ ?_
  · refine .bind ?_ fun _ => (raises_mergeEntries _).bind fun _ => .ok _
    exact (raises_dataElementBase _ _).bind fun _ => .ok _
  · refine .bind ?_ fun _ => ?_
    · unfold DataElement.newFreeText
      refine (raises_dataElementBase _ _).bind fun _ => ?_
      intro x hx
      repeat' split at hx
      all_goals first | cases hx; done | (cases hx; first | exact .vlu | exact .typ)
    · split <;> exact .ok _

theorem raises_popGroupLists : ∀ n st, Raises (StepExc reader) (popGroupLists n st)
  | 0, _ => .ok _
  | n + 1, st => by
    unfold popGroupLists
    split
    · exact .error .vlu
    · exact raises_popGroupLists n _

theorem raises_pushGroupLists : ∀ n st, Raises (StepExc reader) (pushGroupLists n st)
  | 0, _ => .ok _
  | n + 1, st => by
    unfold pushGroupLists
    split
    · exact .error .unb
    · split
      · exact .error .typ
      · exact .ite (.error .vlu) (raises_pushGroupLists n _)

theorem raises_appendGroup (g st) : Raises (StepExc reader) (appendGroup g st) := by
  unfold appendGroup
  split
  · exact .error .unb
  · exact .ok _

theorem raises_insertGroup (g pos st) : Raises (StepExc reader) (insertGroup g pos st) := by
  unfold insertGroup
  refine .ite (.ok _) ?_
  split
  · exact .error .unb
  · refine .ite (raises_appendGroup _ _) ?_
    refine .bind (fun e he => ?_) fun _ => (raises_popGroupLists _ _).bind fun _ => (raises_pushGroupLists _ _).bind fun _ =>
      raises_appendGroup _ _
    rw [calculateDistance_error he]
    exact .vlu

theorem raises_pyLast {α : Type} (l : List α) : Raises (StepExc reader) (pyLast l) := fun e he => by
  rw [pyLast_error he]; exact .vlu

theorem raises_deepStep {posStr} (st : DeepState) (r : Run) : Raises (StepExc reader) (deepStep reader posStr st r) := by
  unfold deepStep
  dsimp only
  split
  · exact .ok _
  · rename_i hh
    refine (raises_lookupStack _ _).bind fun v => ?_
    refine .ite ?_ ?_
    · unfold dataElementStep
      refine .ite (.ok _) (.bind ?_ fun _ => ?_)
      · cases hl : r.2.map Prod.fst with
        | nil => rw [hl] at hh; simp at hh
        | cons l ls => exact raises_merge l ls _
      · split
        · exact .error .vlu
        · exact .ok _
    · unfold segmentStep
      dsimp only
      split
      · refine .bind (.ok _) fun _ => (raises_pyLast _).bind fun _ => .bind ?_ fun _ => ?_
        · unfold maybeOpenGroup
          refine (raises_pyLast _).bind fun _ => .ite ?_ (.ok _)
          exact (raises_groupNew _ _ _ _ _).bind fun _ => raises_insertGroup _ _ _
        · refine .ite (.error .ass) (.ite (.error .ass) ?_)
          unfold createSegment
          split
          · exact .ok _
          · refine (raises_segmentNew _ _ _ _ _ _).bind fun _ => ?_
            split
            · exact .error .unb
            · exact .ok _
      · exact fun e he => by cases he; exact .vlu

theorem raises_deepFold {posStr} : ∀ (runs : List Run) (st : DeepState),
    Raises (StepExc reader) (runs.foldlM (deepStep reader posStr) st)
  | [], _ => .ok _
  | r :: runs, st => by
    rw [List.foldlM_cons]
    exact (raises_deepStep st r).bind fun _ => raises_deepFold runs _

end

end Verif
