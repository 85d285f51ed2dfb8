import Verif.Proofs.DeepSuccess
import Verif.Spec.DeepRaises
/-! lemmas about the exceptions of `to_deep_ahb` -/

namespace Verif

/-! ## the MIG reader -/

theorem lookupStack_error_iff {reader : MigLookup} {r : Run} (hne : r.2 ≠ []) (e : Exc) :
    lookupStack reader r.1 r.2 = .error e ↔ r.LookupRaises reader e := by
  obtain ⟨key, group⟩ := r
  match group, hne with
  | [(l, loc)], _ =>
    simp only [lookupStack, List.length_singleton, if_true, Run.location, Run.LookupRaises]
    cases hr : reader loc with
    | ok s => simp
    | error x =>
      by_cases hx : x = .valueError
      · subst hx
        simp
        intro h h'
        exact h h'.symm
      · have : ∀ (α : Type) (a b : α), (match (Except.error x : PyRes (Option EdifactStack)) with
            | .ok _ => a
            | .error .valueError => b
            | .error _ => a) = a := by intro α a b; cases x <;> first | rfl | exact absurd rfl hx
        cases x <;> first | exact absurd rfl hx | (simp; rintro rfl; simp)
  | (l, loc) :: y :: ys, _ =>
    simp only [lookupStack, List.length_cons, Nat.add_eq_right, Nat.add_one_ne_zero, if_false, Run.location, Run.LookupRaises]
    cases hr : reader key with
    | ok s => simp
    | error x =>
      by_cases hx : x = .valueError
      · subst hx
        simp only [retryStack_eq, List.map_cons]
        cases hr2 : reader loc with
        | ok s =>
          simp [hr2, bind, Except.bind, pure, Except.pure]
          intro h h'
          exact h h'.symm
        | error z =>
          by_cases hz : z = .valueError
          · subst hz
            simp [hr2, bind, Except.bind, pure, Except.pure]
            intro h
            exact fun h' => h h'.symm
          · cases z <;> first
              | exact absurd rfl hz
              | (simp [hr2, bind, Except.bind]
                 constructor
                 · rintro rfl; simp
                 · rintro ⟨h, h' | h'⟩
                   · exact absurd h'.symm h
                   · exact h')
      · cases x <;> first
          | exact absurd rfl hx
          | (simp; rintro rfl; simp)

/-! ## data elements -/

theorem firstBad_cons (l : AhbLine) (ls : List AhbLine) (e : Exc) :
    (∃ good x rest, l :: ls = good ++ x :: rest ∧ (∀ y ∈ good, ∀ e', ¬ BadEntry y e') ∧ BadEntry x e) ↔
      BadEntry l e ∨ (∀ e', ¬ BadEntry l e') ∧
        ∃ good x rest, ls = good ++ x :: rest ∧ (∀ y ∈ good, ∀ e', ¬ BadEntry y e') ∧ BadEntry x e := by
  constructor
  · rintro ⟨good, x, rest, h1, h2, h3⟩
    cases good with
    | nil => cases h1; exact .inl h3
    | cons g good =>
      cases h1
      exact .inr ⟨h2 l (by simp), good, x, rest, rfl, fun y hy => h2 y (by simp [hy]), h3⟩
  · rintro (h | ⟨h, good, x, rest, rfl, h2, h3⟩)
    · exact ⟨[], l, ls, rfl, by simp, h⟩
    · refine ⟨l :: good, x, rest, rfl, fun y hy => ?_, h3⟩
      rcases List.mem_cons.1 hy with rfl | hy
      · exact h
      · exact h2 y hy

theorem mergeEntries_error_iff (ls : List AhbLine) (hv : ∀ l ∈ ls, NoneOr NotBlank l.ahbExpression) (e : Exc) :
    mergeEntries ls = .error e ↔
      ∃ good l rest, ls = good ++ l :: rest ∧ (∀ x ∈ good, ∀ e', ¬ BadEntry x e') ∧ BadEntry l e := by
  induction ls with
  | nil => simp [mergeEntries]
  | cons l ls ih =>
    have ih := ih fun x hx => hv x (by simp [hx])
    rw [firstBad_cons, ← ih]
    simp only [mergeEntries]
    unfold BadEntry
    cases hx : l.ahbExpression with
    | none => simp [truthy]
    | some x =>
      have hnb := hv l (by simp) x hx
      have ht : truthy (some x) = true := by
        have := hnb.ne_nil
        cases x <;> simp_all [truthy]
      simp only [ht, Bool.not_true, Bool.false_eq_true, if_false, ne_eq, reduceCtorEq, not_false_eq_true, true_and]
      cases hn : l.name with
      | none => simp [eq_comm (a := e)]
      | some n =>
        by_cases hq : SomeOf AcceptableQualifier l.valuePoolEntry
        · have hq' := (someOf_qualifier _).2 hq
          cases hm : mergeEntries ls with
          | error z => simp [ValuePoolEntry.new, hq', (notBlank_iff x).2 hnb, bind, Except.bind, hq]
          | ok es => simp [ValuePoolEntry.new, hq', (notBlank_iff x).2 hnb, bind, Except.bind, hq, pure, Except.pure]
        · have hq' : isEdifactQualifier l.valuePoolEntry = false := by
            rw [Bool.eq_false_iff]; exact fun h => hq ((someOf_qualifier _).1 h)
          simp [ValuePoolEntry.new, hq', bind, Except.bind, hq, eq_comm (a := e)]

theorem merge_error_iff {r : Run} (h : r.Sound) (hd : r.hasDataElement = true) (hx : r.hasExpression = true)
    (stk : Option EdifactStack) (e : Exc) :
    mergeLinesWithSameDataElement r.lines stk = .error e ↔ r.ElementRaises e := by
  obtain ⟨d, hdd⟩ : ∃ d, r.1.dataElementId = some d := by
    obtain ⟨l, hl, hs⟩ := List.any_eq_true.1 hd
    rw [h.same l hl] at hs
    exact Option.isSome_iff_exists.1 hs
  cases hl : r.lines with
  | nil => exact absurd hl h.lines_ne
  | cons first rest =>
    have hsame : ∀ l ∈ first :: rest, l.dataElement = some d := fun l hlm => by rw [← hl] at hlm; rw [h.same l hlm, hdd]
    have hone : (distinctDataElements (first :: rest)).length = 1 := by
      have hall : (first :: rest).map AhbLine.dataElement = List.replicate (rest.length + 1) (some d) := by
        rw [List.eq_replicate_iff]
        refine ⟨by simp, fun x hx => ?_⟩
        obtain ⟨l, hl, rfl⟩ := List.mem_map.1 hx
        exact hsame l hl
      unfold distinctDataElements
      rw [hall]
      generalize rest.length = n
      rw [List.replicate_succ, List.eraseDups_cons]
      simp
    have hbase : DataElement.checkBase (stk.map EdifactStack.toJsonPath) (some d) = .ok d := by
      have hdisc : NoneOr NotBlank (stk.map EdifactStack.toJsonPath) := by
        intro x hx
        cases stk with
        | none => cases hx
        | some s =>
          cases hx
          have hpre : ∀ (ls : List EdifactStackLevel) (acc : PyStr), '$' ∈ acc →
              '$' ∈ ls.foldl (fun result l => result ++ EdifactStack.levelPath l) acc := by
            intro ls
            induction ls with
            | nil => intro acc h; exact h
            | cons l ls ih => intro acc h; exact ih _ (by simp [h])
          exact ⟨'$', hpre s.levels py!"$" (by simp), by decide⟩
      rcases checkBase_cases (stk.map EdifactStack.toJsonPath) (some d) with ⟨id, h1, _, _, h2⟩ | ⟨h1, _⟩ | ⟨h1, _⟩
      · cases h1; exact h2
      · cases h1
      · rcases h1 with h1 | ⟨x, h1, h2⟩
        · exact absurd hdisc h1
        · cases h1; exact absurd (h.digits _ hdd) h2
    unfold mergeLinesWithSameDataElement Run.ElementRaises
    rw [if_neg (by simp [hone]), hx, hl]
    simp only [hsame first (by simp), List.head?_cons, Option.some.injEq, exists_eq_left', true_and]
    by_cases hv : first.valuePoolEntry = none
    · rw [hv]
      simp only [Option.isSome_none, Bool.false_eq_true, if_false, DataElement.newFreeText, hbase, bind, Except.bind, ne_eq,
        not_true_eq_false, false_and, true_and, false_or]
      cases he : first.ahbExpression with
      | none => simp [eq_comm (a := e)]
      | some x =>
        have hnb := h.valid first (by rw [hl]; simp) x he
        simp only [(notBlank_iff x).2 hnb, Bool.not_true, Bool.false_eq_true, if_false, pure, Except.pure]
        split <;> simp
    · have hs : first.valuePoolEntry.isSome = true := by
        cases hq : first.valuePoolEntry with
        | none => exact absurd hq hv
        | some _ => rfl
      rw [← mergeEntries_error_iff (first :: rest) (fun l hlm => h.valid l (by rw [hl]; exact hlm))]
      simp only [hs, if_true, DataElement.newValuePool, hbase, bind, Except.bind, pure, Except.pure, ne_eq, hv,
        not_false_eq_true, true_and, false_and, or_false]
      cases mergeEntries (first :: rest) <;> simp

/-! ## groups and segments -/

theorem popGroupLists_error {k st e} (h : popGroupLists k st = .error e) : e = .valueError := by
  induction k generalizing st with
  | zero => cases h
  | succ k ih =>
    unfold popGroupLists at h
    split at h
    · cases h; rfl
    · exact ih h

theorem pushGroupLists_error {lines c k n st e} (hs : OnSpine lines c []) (h : DeepState.Nav st lines c n)
    (hp : pushGroupLists k st = .error e) : e = .valueError := by
  induction k generalizing st n with
  | zero => cases hp
  | succ k ih =>
    have hsplit : OnSpine lines (c.take n ++ c.drop n) [] := by rw [List.take_append_drop]; exact hs
    obtain ⟨r, h1, h2⟩ := hsplit.split
    have hg := h1.groupsAt
    simp only [pushGroupLists, h.sgHere, h.lines, hg] at hp
    by_cases hn : n = c.length
    · subst hn
      rw [List.drop_length] at h2
      cases h2
      simp at hp
      exact hp.symm
    · have hlt : n < c.length := Nat.lt_of_le_of_ne h.le hn
      rw [List.drop_eq_getElem_cons hlt] at h2
      generalize hx : c[n] = x at h2
      generalize c.drop (n + 1) = q at h2
      cases h2 with
      | cons init g gs p r hgs hr =>
        rw [if_neg (by simp)] at hp
        simp only [List.length_append, List.length_singleton, Nat.add_sub_cancel] at hp
        have htake : c.take (n + 1) = c.take n ++ [init.length] := by rw [List.take_succ_eq_append_getElem hlt, hx]
        exact ih (n := n + 1) ⟨rfl, hlt, congrArg some htake.symm, by
          rw [htake, properPrefixes_concat, ← h.parents]⟩ hp

theorem insertGroup_error {st p init g0 ss g pos e} (h : DeepState.BuiltG st p init g0 ss) (hpos : pos.pseudo = false)
    (hprev : ∀ x, st.previousPosition = some x → x.pseudo = false) (hsome : st.previousPosition ≠ none)
    (hp : insertGroup g pos st = .error e) : e = .valueError := by
  have hnav : DeepState.Nav st st.lines (p ++ [init.length]) (p.length + 1) :=
    ⟨rfl, by simp, by rw [h.sgHere, List.take_of_length_le (by simp)], by
      rw [h.parents, List.take_of_length_le (by simp)]⟩
  unfold insertGroup at hp
  split at hp
  · cases hp
  · cases hq : st.previousPosition with
    | none => exact absurd hq hsome
    | some q =>
      rw [hq] at hp
      dsimp only at hp
      split at hp
      · simp only [appendGroup, h.sgHere] at hp
        cases hp
      · simp only [bind, Except.bind] at hp
        cases hd : calculateDistance q pos with
        | error x =>
          rw [hd] at hp
          cases hp
          exact (C06_distance_defined q pos (hprev _ hq) hpos).2 _ hd
        | ok d =>
          rw [hd] at hp
          dsimp only at hp
          cases h1 : popGroupLists d.layersUp st with
          | error x => rw [h1] at hp; cases hp; exact popGroupLists_error h1
          | ok st1 =>
            rw [h1] at hp
            dsimp only at hp
            obtain ⟨_, a2, _⟩ := popGroupLists_nav hnav h1
            cases h2 : pushGroupLists (d.layersDown - 1) st1 with
            | error x => rw [h2] at hp; cases hp; exact pushGroupLists_error h.spineEnd a2 h2
            | ok st2 =>
              rw [h2] at hp
              obtain ⟨_, b2, _⟩ := pushGroupLists_nav h.spineEnd a2 h2
              simp only [appendGroup, b2.sgHere] at hp
              cases hp

/-- which exception a segment is refused with -/
def GroupExc (st : DeepState) (e : Exc) : Prop := (st.sgHere = none ∧ e = .unboundLocalError) ∨ (st.sgHere ≠ none ∧ e = .valueError)

/-- the previous position is known as soon as there is a group -/
def DeepState.PrevInv (st : DeepState) : Prop := st.previousPosition = none ↔ st.sgHere = none

theorem maybeOpenGroup_error {reader : MigLookup} {r : Run} (h : r.Sound) {first last : AhbLine} {st : DeepState}
    (hinv : st.Inv) (hprev : ∀ x, st.previousPosition = some x → x.pseudo = false) (hpi : st.PrevInv)
    (h1 : r.lines.head? = some first) {e : Exc}
    (he : maybeOpenGroup first last r.location (r.stack reader) st = .error e) : last.segmentCode ≠ none ∧ GroupExc st e := by
  obtain ⟨layer, hlayer⟩ : ∃ layer, r.location.layers.getLast? = some layer := by
    cases hl : r.location.layers.getLast? with
    | none => exact absurd (List.getLast?_eq_none_iff.1 hl) h.layers
    | some l => exact ⟨l, rfl⟩
  have hpl : pyLast r.location.layers = .ok layer := by simp [pyLast, hlayer]
  have hfirst : first ∈ r.lines := List.mem_of_mem_head? h1
  simp only [maybeOpenGroup, hpl, bind, Except.bind] at he
  split at he
  · rename_i hop
    have hop' := hop
    simp only [opensGroup, Bool.and_eq_true, decide_eq_true_eq] at hop'
    refine ⟨by rw [← hop'.1.2]; simp, ?_⟩
    cases hs : r.stack reader with
    | none => rw [hs] at hop'; exact absurd hop'.2 (by simp)
    | some s =>
      rw [hs] at hop' he
      have h2 := hop'.2
      simp only [Bool.and_eq_true, Option.isSome_iff_exists] at h2
      obtain ⟨hnot, x, hx⟩ := h2
      have hnb := h.valid first hfirst x hx
      simp only [hx, Option.map_some, segmentGroupNew_succeeds _ _ _ (isNotBlank_strip hnb), Option.toList_some] at he
      rcases hinv with hem | ⟨hroot, p, init, g0, ss, sg, hb, _⟩
      · refine .inl ⟨hem.sgHere, ?_⟩
        have hpn := hpi.2 hem.sgHere
        unfold insertGroup at he
        split at he
        · cases he
        · simp only [hpn] at he
          cases he
          rfl
      · refine .inr ⟨by rw [hb.sgHere]; simp, ?_⟩
        have hb' : DeepState.BuiltG { st with usedStacks := st.usedStacks ++ [s.toJsonPath] } p init g0 (ss ++ [sg]) :=
          ⟨hb.spine, hb.noGroups, hb.segments, hb.sgHere, hb.segmentsHere, hb.parents⟩
        exact insertGroup_error hb' h.pseudo hprev (fun hn => by
          have := hpi.1 hn
          rw [hb.sgHere] at this
          cases this) he
  · cases he

theorem createSegment_error {reader : MigLookup} {posStr} {r : Run} (h : r.Sound) {first : AhbLine} {st : DeepState} {e : Exc}
    (he : createSegment posStr r.lines first r.location (r.stack reader) st = .error e) :
    st.segmentsHere = none ∧ e = .unboundLocalError := by
  unfold createSegment at he
  cases hel : r.lines.find? fun l => truthy l.ahbExpression with
  | none => rw [hel] at he; cases he
  | some el =>
    have hmem := List.mem_of_find?_eq_some hel
    have ht := List.find?_some hel
    obtain ⟨x, hx⟩ := Option.ne_none_iff_exists'.1 ((h.truthy hmem).1 ht)
    rw [hel] at he
    simp only [hx, segmentNew_succeeds _ _ _ ((notBlank_iff x).2 (h.valid el hmem x hx)), bind, Except.bind] at he
    cases hs : st.segmentsHere with
    | none => rw [hs] at he; cases he; exact ⟨rfl, rfl⟩
    | some p => rw [hs] at he; cases he

theorem segment_error {reader : MigLookup} {posStr} {r : Run} (h : r.Sound) {first last : AhbLine} {st st1 : DeepState}
    (hinv : st.Inv) (h1 : r.lines.head? = some first) (h2 : r.lines.getLast? = some last)
    (hm : maybeOpenGroup first last r.location (r.stack reader) st = .ok st1) {e : Exc}
    (he : createSegment posStr r.lines first r.location (r.stack reader) st1 = .error e) : GroupExc st e := by
  obtain ⟨hn, rfl⟩ := createSegment_error h he
  rcases hinv with hem | ⟨hroot, p, init, g0, ss, sg, hb, _⟩
  · exact .inl ⟨hem.sgHere, rfl⟩
  · exfalso
    obtain ⟨layer, hlayer⟩ : ∃ layer, r.location.layers.getLast? = some layer := by
      cases hl : r.location.layers.getLast? with
      | none => exact absurd (List.getLast?_eq_none_iff.1 hl) h.layers
      | some l => exact ⟨l, rfl⟩
    have hpl : pyLast r.location.layers = .ok layer := by simp [pyLast, hlayer]
    obtain ⟨o1, _⟩ := opensGroup_iff (reader := reader) (used := st.usedStacks) h1 h2 hlayer
    simp only [maybeOpenGroup, hpl, bind, Except.bind] at hm
    cases hop : opensGroup st.usedStacks first last layer (r.stack reader) with
    | false =>
      rw [hop] at hm
      cases hm
      rw [hb.segmentsHere] at hn
      cases hn
    | true =>
      obtain ⟨s, hs, hpath, hnot, x, hx⟩ := o1 hop
      have hnb := h.valid first (List.mem_of_mem_head? h1) x hx
      rw [hop] at hm
      simp only [if_true, hs, hx, Option.map_some, segmentGroupNew_succeeds _ _ _ (isNotBlank_strip hnb), Option.toList_some] at hm
      have hne : s.toJsonPath ≠ rootPath := by rintro heq; exact hnot (heq ▸ hroot)
      have hb' : DeepState.BuiltG { st with usedStacks := st.usedStacks ++ [s.toJsonPath] } p init g0 (ss ++ [sg]) :=
        ⟨hb.spine, hb.noGroups, hb.segments, hb.sgHere, hb.segmentsHere, hb.parents⟩
      obtain ⟨_, _, _, _, hI, _⟩ := insertGroup_built hb' (by simpa [SegmentGroup.discriminator] using hne) hm
      rw [hI.segmentsHere] at hn
      cases hn

/-! ## single steps -/

/-- the exception of a single step -/
def StepRaises (reader : MigLookup) (posStr : AhbLocation → PyStr) (st : DeepState) (r : Run) (e : Exc) : Prop :=
  r.LookupRaises reader e ∨ ((∀ e', ¬ r.LookupRaises reader e') ∧
    ((r.hasDataElement = true ∧ (r.ElementRaises e ∨
        (r.hasExpression = true ∧ (∀ e', ¬ r.ElementRaises e') ∧ st.sgHere = none ∧ e = .valueError))) ∨
      (r.hasDataElement = false ∧ ∃ last, r.lines.getLast? = some last ∧
        ((last.segmentCode = none ∧ e = .assertionError) ∨
          (last.segmentCode ≠ none ∧ ¬ NavOk reader posStr st r ∧ GroupExc st e)))))

theorem deepStep_error_iff {reader : MigLookup} {posStr} {r : Run} (h : r.Sound) {st : DeepState}
    (hinv : st.Inv) (hprev : ∀ x, st.previousPosition = some x → x.pseudo = false) (hpi : st.PrevInv) (e : Exc) :
    deepStep reader posStr st r = .error e ↔ r.isHeading = false ∧ StepRaises reader posStr st r e := by
  have hlines : r.2.map Prod.fst = r.lines := rfl
  have hheading : r.isHeading = !(r.lines.any fun l => l.segmentCode.isSome) := by
    simp [Run.isHeading, List.not_any_eq_all_not]
  unfold deepStep
  simp only [hlines, ← hheading]
  cases hh : r.isHeading with
  | true => simp
  | false =>
    simp only [Bool.false_eq_true, if_false, bind, Except.bind, true_and]
    have hlk := lookupStack_error_iff (reader := reader) h.ne
    unfold StepRaises
    cases hv : lookupStack reader r.1 r.2 with
    | error x =>
      have hx := (hlk x).1 hv
      dsimp only
      constructor
      · intro hq
        cases hq
        exact .inl hx
      · rintro (hq | ⟨hq, _⟩)
        · have := (hlk e).2 hq
          rw [hv] at this
          cases this
          rfl
        · exact absurd hx (hq x)
    | ok v =>
      have hno : ∀ e', ¬ r.LookupRaises reader e' := fun e' he' => by
        have := (hlk e').2 he'
        rw [hv] at this
        cases this
      obtain ⟨e1, e2⟩ := lookupStack_ok (pos := v.1) (stk := v.2) h.ne hv
      simp only [e1, e2, hno, false_or, not_false_eq_true, implies_true, true_and]
      have hd' : (r.lines.any fun l => l.dataElement.isSome) = r.hasDataElement := rfl
      rw [hd']
      cases hd : r.hasDataElement with
      | true =>
        simp only [if_true, true_and, Bool.true_eq_false, false_and, or_false]
        have hx' : (r.lines.any fun l => l.ahbExpression.isSome) = r.hasExpression := rfl
        unfold dataElementStep
        rw [hx']
        cases hx : r.hasExpression with
        | false => simp [Run.ElementRaises, hx]
        | true =>
          simp only [Bool.not_true, Bool.false_eq_true, if_false, bind, Except.bind, true_and]
          have hm := merge_error_iff h hd hx (r.stack reader)
          cases hde : mergeLinesWithSameDataElement r.lines (r.stack reader) with
          | error x =>
            have hx2 := (hm x).1 hde
            dsimp only
            constructor
            · intro hq; cases hq; exact .inl hx2
            · rintro (hq | ⟨hq, _⟩)
              · have := (hm e).2 hq
                rw [hde] at this
                cases this
                rfl
              · exact absurd hx2 (hq x)
          | ok de =>
            have hno2 : ∀ e', ¬ r.ElementRaises e' := fun e' he' => by
              have := (hm e').2 he'
              rw [hde] at this
              cases this
            simp only [hno2, false_or, not_false_eq_true, implies_true, true_and]
            rcases hinv with hem | ⟨_, p, init, g0, ss, sg, hb, hdeh⟩
            · simp [hem.dataElementsHere, hem.sgHere, eq_comm (a := e)]
            · simp [hdeh, hb.sgHere, pure, Except.pure]
      | false =>
        simp only [Bool.false_eq_true, if_false, false_and, false_or, true_and]
        obtain ⟨first, hf⟩ : ∃ first, r.lines.head? = some first := by
          cases hl : r.lines with
          | nil => exact absurd hl h.lines_ne
          | cons first rest => exact ⟨first, rfl⟩
        obtain ⟨last, hlast⟩ : ∃ last, r.lines.getLast? = some last := by
          cases hq : r.lines.getLast? with
          | none => exact absurd (List.getLast?_eq_none_iff.1 hq) h.lines_ne
          | some l => exact ⟨l, rfl⟩
        have hnd : last.dataElement = none := by
          have : ∀ l ∈ r.lines, l.dataElement = none := by simpa [Run.hasDataElement] using hd
          exact this last (List.mem_of_getLast? hlast)
        have hiff := maybeOpenGroup_succeeds_iff (reader := reader) (posStr := posStr) h hinv hprev hh hd hf hlast
        have hpl : pyLast r.lines = .ok last := by simp [pyLast, hlast]
        unfold segmentStep
        simp only [hf, hpl, bind, Except.bind, hnd, Option.isSome_none, Bool.false_eq_true, if_false, hlast, Option.some.injEq,
          exists_eq_left']
        have huniq : ∀ e', GroupExc st e → GroupExc st e' → e' = e := by
          rintro e' (⟨a, rfl⟩ | ⟨a, rfl⟩) (⟨b, rfl⟩ | ⟨b, rfl⟩)
          · rfl
          · exact absurd a b
          · exact absurd b a
          · rfl
        cases hmo : maybeOpenGroup first last r.location (r.stack reader) st with
        | error x =>
          obtain ⟨m1, m2⟩ := maybeOpenGroup_error h hinv hprev hpi hf hmo
          have hnn : ¬ NavOk reader posStr st r := fun hnav => by
            obtain ⟨st1, hst1, _⟩ := hiff.2 hnav
            rw [hmo] at hst1
            cases hst1
          dsimp only
          constructor
          · intro hq; cases hq; exact .inr ⟨m1, hnn, m2⟩
          · rintro (⟨hq, _⟩ | ⟨_, _, hq⟩)
            · exact absurd hq m1
            · rw [huniq x hq m2]
        | ok st1 =>
          dsimp only
          cases hsc : last.segmentCode with
          | none => simp [eq_comm (a := e)]
          | some code =>
            simp only [Option.isNone_some, Bool.false_eq_true, if_false, reduceCtorEq, false_and, ne_eq, not_false_eq_true, true_and,
              false_or]
            cases hcs : createSegment posStr r.lines first r.location (r.stack reader) st1 with
            | error x =>
              have hg := segment_error h hinv hf hlast hmo hcs
              have hnn : ¬ NavOk reader posStr st r := fun hnav => by
                obtain ⟨st2, hst2, st3, hst3⟩ := hiff.2 hnav
                rw [hmo] at hst2
                cases hst2
                rw [hcs] at hst3
                cases hst3
              constructor
              · intro hq; cases hq; exact ⟨hnn, hg⟩
              · rintro ⟨_, hq⟩; rw [huniq x hq hg]
            | ok st2 =>
              have hnav := hiff.1 ⟨st1, hmo, st2, hcs⟩
              simp [hnav]

/-! ## all runs -/

theorem deepStep_prevInv {reader : MigLookup} {posStr} {r : Run} (h : r.Sound) {st st' : DeepState} (hinv : st.Inv)
    (hprev : ∀ x, st.previousPosition = some x → x.pseudo = false) (hpi : st.PrevInv)
    (hst : deepStep reader posStr st r = .ok st') : st'.PrevInv := by
  obtain ⟨hI, _, hdoc, ⟨hp, hnav⟩, _⟩ := deepStep_ok hinv hst
  have hok := (deepStep_succeeds_iff (posStr := posStr) (reader := reader) h hinv hprev).1 ⟨st', hst⟩
  unfold DeepState.PrevInv
  rw [hp]
  rcases hnav with ⟨_, _, hsg⟩ | ⟨_, hu, path, _, q, n, _, _, hsg⟩
  · rw [hsg]
    split
    · rename_i hu
      simp only [reduceCtorEq, false_iff]
      intro hn
      -- nothing can be created when there is no group
      have hem : st'.Empty := by
        rcases hI with h | ⟨_, p, init, g0, ss, sg, hb, _⟩
        · exact h
        · have := hb.sgHere
          rw [hsg, hn] at this
          cases this
      have hcr : r.created reader posStr st.usedStacks = [] := by
        rw [hem.lines] at hdoc
        have : (documentOrder ([] : List SegmentGroup)) = [] := rfl
        rw [this] at hdoc
        exact (List.append_eq_nil_iff.1 hdoc.symm).2
      unfold Run.isUsed at hu
      simp only [Bool.and_eq_true, Bool.not_eq_true'] at hu
      obtain ⟨hh, hu⟩ := hu
      unfold Run.created at hcr
      rw [hh] at hcr
      simp only [Bool.false_eq_true, if_false] at hcr
      split at hu
      · rename_i hd
        rw [if_pos hd] at hcr
        obtain ⟨de, hde⟩ := (merge_succeeds_iff h hd hu (r.stack reader)).2
          ⟨(hok.1 hh).pool hd, fun first a b => (hok.1 hh).freeText hd first a b hu⟩
        simp [Run.createdDataElement, hu, hde] at hcr
      · rename_i hd
        rw [if_neg hd] at hcr
        obtain ⟨e, he⟩ := Option.isSome_iff_exists.1 hu
        cases hl : r.lines with
        | nil => exact absurd hl h.lines_ne
        | cons first rest => simp [Run.createdSegment, he, hl] at hcr
    · exact hpi
  · rw [hsg, if_pos hu]
    simp

theorem allFit_singleton (reader : MigLookup) (posStr : AhbLocation → PyStr) (st : DeepState) (r : Run) :
    AllFit reader posStr st [r] ↔ NavOk reader posStr st r := by
  have ho : ∀ used previous, openings reader used previous [r] = openedBy reader used previous r := by
    intro used previous
    rw [openings_cons]
    simp [openings]
  have hlen : ∀ used previous, openedBy reader used previous r = [] ∨ ∃ o, openedBy reader used previous r = [o] := by
    intro used previous
    unfold openedBy
    split
    · exact .inl rfl
    · cases r.openedPath reader used with
      | none => exact .inl rfl
      | some p => exact .inr ⟨_, rfl⟩
  unfold AllFit NavOk
  split
  · rw [ho]
    have : (openedBy reader st.usedStacks (st.previousPosition.map AhbLocation.layers) r).tail = [] := by
      rcases hlen st.usedStacks (st.previousPosition.map AhbLocation.layers) with h | ⟨o, h⟩ <;> rw [h] <;> rfl
    rw [this]
    simp [createdItems, OpeningsFit]
  · rename_i c hc
    rw [ho]
    rcases hlen st.usedStacks (st.previousPosition.map AhbLocation.layers) with h | ⟨o, h⟩ <;> rw [h]
    · simp [OpeningsFit]
    · simp [OpeningsFit]

/-- the state after runs that have been converted -/
theorem deepFold_state {reader : MigLookup} {posStr} (before : List Run) (hruns : ∀ r ∈ before, r.Sound) {st st' : DeepState}
    (hinv : st.Inv) (hprev : ∀ x, st.previousPosition = some x → x.pseudo = false) (hpi : st.PrevInv)
    (h : before.foldlM (deepStep reader posStr) st = .ok st') :
    st'.Inv ∧ (∀ x, st'.previousPosition = some x → x.pseudo = false) ∧ st'.PrevInv ∧
      ∀ more, AllFit reader posStr st (before ++ more) ↔ AllFit reader posStr st' more := by
  induction before generalizing st with
  | nil => cases h; exact ⟨hinv, hprev, hpi, fun _ => Iff.rfl⟩
  | cons r runs ih =>
    have hr := hruns r (by simp)
    rw [List.foldlM_cons] at h
    cases hst : deepStep reader posStr st r with
    | error e => rw [hst] at h; cases h
    | ok st1 =>
      rw [hst] at h
      simp only [bind, Except.bind] at h
      obtain ⟨h1, _, _, ⟨hp, _⟩, _⟩ := deepStep_ok hinv hst
      have hprev1 : ∀ p, st1.previousPosition = some p → p.pseudo = false := by
        intro p hp'
        rw [hp] at hp'
        split at hp'
        · cases hp'; exact hr.pseudo
        · exact hprev p hp'
      obtain ⟨i1, i2, i3, i4⟩ := ih (fun r hr => hruns r (by simp [hr])) h1 hprev1
        (deepStep_prevInv hr hinv hprev hpi hst) h
      exact ⟨i1, i2, i3, fun more => by
        rw [List.cons_append, allFit_cons hr hinv hprev hst]; exact i4 more⟩

theorem foldlM_error_iff {α β : Type} (f : β → α → PyRes β) (l : List α) (b : β) (e : Exc) :
    l.foldlM f b = .error e ↔ ∃ before a after b', l = before ++ a :: after ∧ before.foldlM f b = .ok b' ∧ f b' a = .error e := by
  induction l generalizing b with
  | nil => simp [pure, Except.pure]
  | cons x xs ih =>
    rw [List.foldlM_cons]
    cases hx : f b x with
    | error e' =>
      simp only [bind, Except.bind]
      constructor
      · intro h; cases h; exact ⟨[], x, xs, b, rfl, rfl, hx⟩
      · rintro ⟨before, a, after, b', h1, h2, h3⟩
        cases before with
        | nil =>
          cases h1; cases h2
          rw [hx] at h3; exact h3
        | cons y ys =>
          cases h1
          rw [List.foldlM_cons, hx] at h2
          cases h2
    | ok b1 =>
      simp only [bind, Except.bind]
      rw [ih]
      constructor
      · rintro ⟨before, a, after, b', rfl, h2, h3⟩
        exact ⟨x :: before, a, after, b', rfl, by rw [List.foldlM_cons, hx]; exact h2, h3⟩
      · rintro ⟨before, a, after, b', h1, h2, h3⟩
        cases before with
        | nil =>
          cases h1; cases h2
          rw [hx] at h3; cases h3
        | cons y ys =>
          cases h1
          rw [List.foldlM_cons, hx] at h2
          exact ⟨ys, a, after, b', rfl, h2, h3⟩

theorem createdItems_split (reader : MigLookup) (posStr : AhbLocation → PyStr) (a b : List Run) (used : List PyStr) :
    ∃ used', createdItems reader posStr used (a ++ b) = createdItems reader posStr used a ++ createdItems reader posStr used' b := by
  induction a generalizing used with
  | nil => exact ⟨used, rfl⟩
  | cons r a ih =>
    obtain ⟨used', h⟩ := ih (r.usedAfter reader used)
    exact ⟨used', by rw [List.cons_append, createdItems, createdItems, h, List.append_assoc]⟩

theorem deepFold_error_iff {reader : MigLookup} {posStr} (runs : List Run) (hruns : ∀ r ∈ runs, r.Sound) (e : Exc) :
    runs.foldlM (deepStep reader posStr) DeepState.init = .error e ↔ FirstFailure reader posStr runs e := by
  have hp0 : ∀ x, DeepState.init.previousPosition = some x → x.pseudo = false := fun x hx => by cases hx
  have hpi0 : DeepState.init.PrevInv := by simp [DeepState.PrevInv, DeepState.init]
  have hfold : ∀ before : List Run, (∀ r ∈ before, r.Sound) →
      ((∃ st, before.foldlM (deepStep reader posStr) DeepState.init = .ok st) ↔ Convertible reader posStr before) := by
    intro before hb
    rw [deepFold_succeeds_iff before hb DeepState.init_inv hp0]
    exact ⟨fun ⟨a, b, c⟩ => ⟨a, b, c⟩, fun ⟨a, b, c⟩ => ⟨a, b, c⟩⟩
  have hstep : ∀ (before : List Run) (r : Run) (st : DeepState), (∀ x ∈ before, x.Sound) → r.Sound →
      before.foldlM (deepStep reader posStr) DeepState.init = .ok st →
      (StepRaises reader posStr st r e ↔ RunRaises reader posStr before r e) := by
    intro before r st hb hr hst
    obtain ⟨s1, s2, s3, s4⟩ := deepFold_state before hb DeepState.init_inv hp0 hpi0 hst
    obtain ⟨_, d2, _, _⟩ := deepFold_ok before DeepState.init_inv hst
    have hcr : documentOrder st.lines = createdItems reader posStr [] before := by
      rw [d2]; rfl
    have hconv := (hfold before hb).1 ⟨st, hst⟩
    have hnone : createdItems reader posStr [] before = [] ↔ st.sgHere = none := by
      rw [← hcr]
      rcases s1 with hem | ⟨_, p, init, g0, ss, sg, hbt, _⟩
      · rw [hem.lines, hem.sgHere]
        simp [documentOrder]
      · rw [hbt.sgHere]
        simp only [reduceCtorEq, iff_false]
        intro hdoc
        obtain ⟨pre, hpre, _⟩ := hbt.spine.docOrder
        rw [hpre] at hdoc
        have := (List.append_eq_nil_iff.1 hdoc).2
        cases g0
        simp [documentOrder, SegmentGroup.docItems] at this
    have hnav : st.sgHere ≠ none →
        (NavOk reader posStr st r ↔ OpeningsFit 1 (openings reader [] none (before ++ [r])).tail) := by
      intro hsg
      rw [← allFit_singleton, ← s4 [r]]
      have : AllFit reader posStr DeepState.init (before ++ [r]) ↔ StartsWithRoot (createdItems reader posStr [] (before ++ [r])) ∧
        OpeningsFit 1 (openings reader [] none (before ++ [r])).tail := Iff.rfl
      rw [this]
      refine and_iff_right ?_
      intro x hx
      obtain ⟨used', hu⟩ := createdItems_split reader posStr before [r] []
      rw [hu] at hx
      refine hconv.root x ?_
      cases hci : createdItems reader posStr [] before with
      | nil => exact absurd (hnone.1 hci) hsg
      | cons y ys => rw [hci] at hx; exact hx
    have hnav0 : st.sgHere = none → (NavOk reader posStr st r ↔ StartsWithRoot (r.created reader posStr [])) := by
      intro hsg
      have hused : st.usedStacks = [] := by
        rcases s1 with hem | ⟨_, p, init, g0, ss, sg, hbt, _⟩
        · exact hem.used
        · rw [hbt.sgHere] at hsg; cases hsg
      unfold NavOk
      rw [hsg, hused]
    constructor
    · rintro (h | ⟨h1, (⟨h2, h3 | ⟨h3, h4, h5, rfl⟩⟩ | ⟨h2, last, hl, ⟨h3, rfl⟩ | ⟨h3, h4, ⟨h5, rfl⟩ | ⟨h5, rfl⟩⟩⟩)⟩)
      · exact .lookup _ h
      · exact .element _ h1 h2 h3
      · exact .noSegment h1 h2 h3 h4 (hnone.2 h5)
      · exact .noCode h1 h2 last hl h3
      · exact .noGroup h1 h2 last hl h3 (hnone.2 h5) (fun hs => h4 ((hnav0 h5).2 hs))
      · exact .doesNotFit h1 h2 (fun hc => h5 (hnone.1 hc)) (fun hs => h4 ((hnav h5).2 hs))
    · intro h
      cases h with
      | lookup _ h => exact .inl h
      | element _ h1 h2 h3 => exact .inr ⟨h1, .inl ⟨h2, .inl h3⟩⟩
      | noSegment h1 h2 h3 h4 h5 => exact .inr ⟨h1, .inl ⟨h2, .inr ⟨h3, h4, hnone.1 h5, rfl⟩⟩⟩
      | noCode h1 h2 last hl h3 => exact .inr ⟨h1, .inr ⟨h2, last, hl, .inl ⟨h3, rfl⟩⟩⟩
      | noGroup h1 h2 last hl h3 h4 h5 =>
        have hsg := hnone.1 h4
        exact .inr ⟨h1, .inr ⟨h2, last, hl, .inr ⟨h3, fun hn => h5 ((hnav0 hsg).1 hn), .inl ⟨hsg, rfl⟩⟩⟩⟩
      | doesNotFit h1 h2 h4 h5 =>
        have hsg : st.sgHere ≠ none := fun hn => h4 (hnone.2 hn)
        have hnn : ¬ NavOk reader posStr st r := fun hn => h5 ((hnav hsg).1 hn)
        obtain ⟨last, hlast⟩ : ∃ last, r.lines.getLast? = some last := by
          cases hq : r.lines.getLast? with
          | none => exact absurd (List.getLast?_eq_none_iff.1 hq) hr.lines_ne
          | some l => exact ⟨l, rfl⟩
        refine .inr ⟨h1, .inr ⟨h2, last, hlast, .inr ⟨?_, hnn, .inr ⟨hsg, rfl⟩⟩⟩⟩
        -- a run that opens a group ends with the opening segment
        intro hcode
        refine hnn ?_
        unfold NavOk
        split
        · rename_i hs; exact absurd hs hsg
        · intro o ho
          exfalso
          unfold openedBy at ho
          split at ho
          · cases ho
          · have hop : r.openedPath reader st.usedStacks = none := by
              unfold Run.openedPath
              split
              · rename_i first last' layer stack _ hl2 _ _
                rw [hlast] at hl2
                cases hl2
                rw [if_neg]
                rintro ⟨_, hc, _⟩
                rw [hcode] at hc
                cases hc
              · rfl
            rw [hop] at ho
            cases ho
  rw [foldlM_error_iff]
  unfold FirstFailure
  constructor
  · rintro ⟨before, r, after, st, rfl, h2, h3⟩
    have hb : ∀ x ∈ before, Run.Sound x := fun x hx => hruns x (by simp [hx])
    have hr : Run.Sound r := hruns r (by simp)
    obtain ⟨s1, s2, s3, _⟩ := deepFold_state before hb DeepState.init_inv hp0 hpi0 h2
    obtain ⟨hh, hraise⟩ := (deepStep_error_iff hr s1 s2 s3 e).1 h3
    exact ⟨before, r, after, rfl, (hfold before hb).1 ⟨st, h2⟩, hh, (hstep before r st hb hr h2).1 hraise⟩
  · rintro ⟨before, r, after, rfl, hc, hh, hraise⟩
    have hb : ∀ x ∈ before, Run.Sound x := fun x hx => hruns x (by simp [hx])
    have hr : Run.Sound r := hruns r (by simp)
    obtain ⟨st, h2⟩ := (hfold before hb).2 hc
    obtain ⟨s1, s2, s3, _⟩ := deepFold_state before hb DeepState.init_inv hp0 hpi0 h2
    exact ⟨before, r, after, st, rfl, h2, (deepStep_error_iff hr s1 s2 s3 e).2 ⟨hh, (hstep before r st hb hr h2).2 hraise⟩⟩

end Verif
