import Verif.Proofs.DeepRef
import Verif.Props.TransformAll
/-!
# Properties C76, C77 and the second part of C57: which objects `get_all_value_pools` returns and
`transform_all_value_pools` modifies
-/

namespace Verif

/-- **C76** `get_all_value_pools` returns, in the order of the search, exactly those value pools that are the first ones with
their discriminator: the lines are searched one after the other, the groups below a line before the line itself. -/
theorem C76_value_pool_objects (a : DeepAhb) :
    a.getAllValuePoolRefs.map Prod.snd = a.getAllValuePools ∧
    a.getAllValuePoolRefs.Pairwise (fun x y => SearchedBefore x.1 y.1) ∧
    ∀ place de, (place, de) ∈ a.getAllValuePoolRefs ↔ FirstWithDiscriminator a.lines place de := by
  have hp := searchOrder_pairwise a.lines 0
  obtain ⟨h1, h2⟩ := foldl_addRef_first _ hp
  refine ⟨getAllValuePoolRefs_snd a, ?_, fun place de => ?_⟩
  · rw [getAllValuePoolRefs_searchOrder]
    exact hp.sublist h1
  · rw [getAllValuePoolRefs_searchOrder, h2, mem_searchOrder]
    unfold FirstWithDiscriminator
    constructor
    · rintro ⟨⟨h3, h4⟩, h5⟩
      refine ⟨h3, h4, fun place' de' h6 h7 h8 => ?_⟩
      rcases h5 (place', de') ((mem_searchOrder _ _ _).2 ⟨h6, h7⟩) h8 with h9 | h9
      · cases h9; exact .inl rfl
      · exact .inr h9
    · rintro ⟨h3, h4, h5⟩
      refine ⟨⟨h3, h4⟩, fun y hy he => ?_⟩
      obtain ⟨place', de'⟩ := y
      obtain ⟨h6, h7⟩ := (mem_searchOrder _ _ _).1 hy
      rcases h5 place' de' h6 h7 he with rfl | h9
      · rw [h3] at h6; cases h6; exact .inl rfl
      · exact .inr h9

/-- **C76** the order of the search is asymmetric (so there is at most one first value pool per discriminator), and every
discriminator of a value pool has a first one. -/
theorem C76_exactly_one (a : DeepAhb) :
    (∀ x y, SearchedBefore x y → ¬ SearchedBefore y x) ∧
    ∀ place de, elementAt? a.lines place = some de → de.isValuePool = true →
      ∃ place' de', FirstWithDiscriminator a.lines place' de' ∧ de'.discriminator = de.discriminator ∧
        ∀ place'' de'', FirstWithDiscriminator a.lines place'' de'' → de''.discriminator = de.discriminator → place'' = place' := by
  refine ⟨fun x y h => h.asymm, fun place de hde hp => ?_⟩
  have inv0 : PoolRefAcc.Inv {} := ⟨by simp⟩
  obtain ⟨hi, hd⟩ := inv0.foldl (searchOrder a.lines 0)
  have := (hd de.discriminator).2 (.inr ⟨(place, de), (mem_searchOrder _ _ _).2 ⟨hde, hp⟩, rfl⟩)
  rw [hi.added, ← getAllValuePoolRefs_searchOrder] at this
  obtain ⟨⟨place', de'⟩, hmem, he⟩ := List.mem_map.1 this
  have hfirst := ((C76_value_pool_objects a).2.2 place' de').1 hmem
  refine ⟨place', de', hfirst, he, fun place'' de'' h'' he'' => ?_⟩
  simp only at he
  rcases hfirst.2.2 place'' de'' h''.1 h''.2.1 (by rw [he'', he]) with h | h
  · exact h
  · rcases h''.2.2 place' de' hfirst.1 hfirst.2.1 (by rw [he'', he]) with h3 | h3
    · exact h3.symm
    · exact absurd h3 h.asymm

/-! ## the deep AHB after `transform_all_value_pools` -/

theorem contentAt_spec {R : DataElement → DataElement → Prop} (refs : List ElementRef) (after : List DataElement)
    (h : List.Forall₂ R (refs.map Prod.snd) after) (hnd : (refs.map Prod.fst).Nodup) (place : ElementAddr) (de : DataElement) :
    ((place, de) ∈ refs → R de (contentAt refs after place de)) ∧
    ((∀ x ∈ refs, x.1 ≠ place) → contentAt refs after place de = de) := by
  unfold contentAt
  induction refs generalizing after with
  | nil => exact ⟨fun h => (by cases h), fun _ => by simp⟩
  | cons x refs ih =>
    obtain ⟨p, d⟩ := x
    cases h with
    | cons hab h =>
      rename_i y after
      rw [List.map_cons, List.nodup_cons] at hnd
      rw [List.map_cons, List.zip_cons_cons, List.find?_cons]
      by_cases hp : p = place
      · subst hp
        simp only [decide_true, Option.elim_some]
        refine ⟨fun hm => ?_, fun hm => absurd rfl (hm (p, d) (by simp))⟩
        rcases List.mem_cons.1 hm with hm | hm
        · cases hm; exact hab
        · exact absurd (List.mem_map_of_mem hm) hnd.1
      · simp only [hp, decide_false]
        obtain ⟨i1, i2⟩ := ih after h hnd.2
        refine ⟨fun hm => ?_, fun hm => i2 fun x hx => hm x (by simp [hx])⟩
        rcases List.mem_cons.1 hm with hm | hm
        · cases hm; exact absurd rfl hp
        · exact i1 hm

theorem getElem?_atPlacesList (f : ElementAddr → DataElement → DataElement) (p : List Nat) (l : List SegmentGroup) : ∀ (n i : Nat),
    (SegmentGroup.atPlacesList f p n l)[i]? = (l[i]?).map fun g => g.atPlaces f (p ++ [n + i]) := by
  induction l with
  | nil => intro n i; simp [SegmentGroup.atPlacesList]
  | cons g l ih =>
    intro n i
    rw [SegmentGroup.atPlacesList]
    cases i with
    | zero => simp
    | succ i =>
      rw [List.getElem?_cons_succ, List.getElem?_cons_succ, ih]
      have : n + 1 + i = n + (i + 1) := by omega
      rw [this]

theorem children_atPlaces (f : ElementAddr → DataElement → DataElement) (p : List Nat) (g : SegmentGroup) :
    (g.atPlaces f p).children = SegmentGroup.atPlacesList f p 0 g.children := by
  cases g with
  | mk d e i s gs => cases gs <;> simp [SegmentGroup.atPlaces, SegmentGroup.atPlacesOpt, SegmentGroup.children,
      SegmentGroup.segmentGroups, SegmentGroup.atPlacesList]

theorem ownSegments_atPlaces (f : ElementAddr → DataElement → DataElement) (p : List Nat) (g : SegmentGroup) :
    (g.atPlaces f p).ownSegments = g.ownSegments.zipIdx.map (Segment.atPlaces f p) := by
  cases g with
  | mk d e i s gs => cases s <;> simp [SegmentGroup.atPlaces, SegmentGroup.ownSegments, SegmentGroup.segments]

theorem at?_atPlaces (f : ElementAddr → DataElement → DataElement) (r : List Nat) : ∀ (p : List Nat) (g : SegmentGroup),
    (g.atPlaces f p).at? r = (g.at? r).map fun h => h.atPlaces f (p ++ r) := by
  induction r with
  | nil => intro p g; simp [at?_nil]
  | cons i r ih =>
    intro p g
    rw [at?_cons, at?_cons]
    simp only [groupAt?]
    rw [children_atPlaces, getElem?_atPlacesList]
    cases g.children[i]? with
    | none => rfl
    | some c =>
      simp only [Option.map_some, Option.bind_some]
      rw [ih]
      simp

theorem elementAt?_atPlaces (f : ElementAddr → DataElement → DataElement) (l : List SegmentGroup) (place : ElementAddr) :
    elementAt? (SegmentGroup.atPlacesList f [] 0 l) place = (elementAt? l place).map (f place) := by
  obtain ⟨p, i, j⟩ := place
  unfold elementAt?
  simp only
  have hg : groupAt? (SegmentGroup.atPlacesList f [] 0 l) p = (groupAt? l p).map fun g => g.atPlaces f p := by
    cases p with
    | nil => rfl
    | cons n r =>
      simp only [groupAt?]
      rw [getElem?_atPlacesList]
      cases l[n]? with
      | none => rfl
      | some line =>
        simp only [Option.map_some, Option.bind_some]
        rw [at?_atPlaces]
        simp
  rw [hg]
  cases groupAt? l p with
  | none => rfl
  | some g =>
    simp only [Option.map_some, Option.bind_some]
    rw [ownSegments_atPlaces, List.getElem?_map, List.getElem?_zipIdx]
    cases g.ownSegments[i]? with
    | none => rfl
    | some s =>
      simp only [Option.map_some, Option.bind_some, Segment.atPlaces]
      rw [List.getElem?_map, List.getElem?_zipIdx]
      cases s.dataElements[j]? with
      | none => rfl
      | some de => simp

mutual
theorem skeleton_atPlaces (f : ElementAddr → DataElement → DataElement) (c : DataElement) (p : List Nat) : ∀ g : SegmentGroup,
    (g.atPlaces f p).mapDataElements (fun _ => c) = g.mapDataElements fun _ => c
  | .mk d e i s gs => by
    rw [SegmentGroup.atPlaces, SegmentGroup.mapDataElements, SegmentGroup.mapDataElements, skeleton_atPlacesOpt f c p gs]
    congr 1
    cases s with
    | none => rfl
    | some ss =>
      simp only [Option.map_some, Option.some.injEq, List.map_map]
      apply List.ext_getElem?
      intro k
      rw [List.getElem?_map, List.getElem?_map, List.getElem?_zipIdx]
      cases ss[k]? with
      | none => rfl
      | some s =>
        simp only [Option.map_some, Function.comp_apply, Segment.atPlaces, Option.some.injEq]
        congr 1
        apply List.ext_getElem?
        intro m
        simp only [List.getElem?_map, List.getElem?_zipIdx]
        cases s.dataElements[m]? <;> rfl
theorem skeleton_atPlacesOpt (f : ElementAddr → DataElement → DataElement) (c : DataElement) (p : List Nat) :
    ∀ o : Option (List SegmentGroup), SegmentGroup.mapDataElementsOpt (fun _ => c) (SegmentGroup.atPlacesOpt f p o) =
      SegmentGroup.mapDataElementsOpt (fun _ => c) o
  | none => by rw [SegmentGroup.atPlacesOpt]
  | some l => by
    rw [SegmentGroup.atPlacesOpt, SegmentGroup.mapDataElementsOpt, SegmentGroup.mapDataElementsOpt, skeleton_atPlacesList f c p 0 l]
theorem skeleton_atPlacesList (f : ElementAddr → DataElement → DataElement) (c : DataElement) (p : List Nat) (n : Nat) :
    ∀ l : List SegmentGroup, SegmentGroup.mapDataElementsList (fun _ => c) (SegmentGroup.atPlacesList f p n l) =
      SegmentGroup.mapDataElementsList (fun _ => c) l
  | [] => by rw [SegmentGroup.atPlacesList]
  | g :: l => by
    rw [SegmentGroup.atPlacesList, SegmentGroup.mapDataElementsList, SegmentGroup.mapDataElementsList,
      skeleton_atPlaces f c (p ++ [n]) g, skeleton_atPlacesList f c p (n + 1) l]
end

theorem poolRefs_nodup (a : DeepAhb) : (a.getAllValuePoolRefs.map Prod.fst).Nodup := by
  refine (List.pairwise_map.2 ((C76_value_pool_objects a).2.1.imp fun h => ?_))
  intro he
  rw [he] at h
  exact h.asymm h

theorem forall₂_map_right {α β γ : Type} {R : α → γ → Prop} {f : β → γ} {l : List α} {l' : List β}
    (h : List.Forall₂ (fun a b => R a (f b)) l l') : List.Forall₂ R l (l'.map f) := by
  induction h with
  | nil => exact .nil
  | cons h _ ih => exact .cons h ih

section
variable {A D : Type} (env : TransformEnv A D) (app : A) (ahb : DeepAhb)

/-- **C57** for every converter, schedule and at every point of time (also after an exception): apart from the contents of
data elements the deep AHB is unchanged; so is every data element that is no value pool to be transformed or not the first
one with its discriminator; the others keep everything but qualifiers and meanings. -/
theorem C57_ahb_frame (schedule : List (Nat × Choice)) (s : TopState A D) (h : topRun env app schedule (topInit env app ahb) = some s) :
    (s.ahbNow ahb).ahbMeta = ahb.ahbMeta ∧
    (∀ c, SegmentGroup.mapDataElementsList (fun _ => c) (s.ahbNow ahb).lines = SegmentGroup.mapDataElementsList (fun _ => c) ahb.lines) ∧
    ∀ place de, elementAt? ahb.lines place = some de → ∃ de', elementAt? (s.ahbNow ahb).lines place = some de' ∧
      (¬ (IsTransformed de ∧ FirstWithDiscriminator ahb.lines place de) → de' = de) ∧
      (de.isValuePool = true → ∃ pool', de' = { de with kind := .valuePool pool' } ∧
        pool'.map ValuePoolEntry.ahbExpression = de.poolEntries.map ValuePoolEntry.ahbExpression) := by
  have hf := C57_frame env app ahb schedule s h
  obtain ⟨h1, h2, h3⟩ := C76_value_pool_objects ahb
  rw [← h1] at hf
  refine ⟨rfl, fun c => skeleton_atPlacesList _ c [] 0 ahb.lines, fun place de hde => ?_⟩
  refine ⟨contentAt ahb.getAllValuePoolRefs (s.tasks.map PoolTask.pool) place de, ?_, ?_⟩
  · exact (elementAt?_atPlaces _ _ _).trans (by rw [hde]; rfl)
  · obtain ⟨c1, c2⟩ := contentAt_spec ahb.getAllValuePoolRefs (s.tasks.map PoolTask.pool)
      (forall₂_map_right (R := fun de de' => (¬ IsTransformed de → de' = de) ∧
        ∃ pool', de' = { de with kind := .valuePool pool' } ∧
          pool'.map ValuePoolEntry.ahbExpression = de.poolEntries.map ValuePoolEntry.ahbExpression) hf) (poolRefs_nodup ahb) place de
    by_cases hm : (place, de) ∈ ahb.getAllValuePoolRefs
    · have hfirst := (h3 place de).1 hm
      exact ⟨fun hn => (c1 hm).1 fun ht => hn ⟨ht, hfirst⟩, fun _ => (c1 hm).2⟩
    · have : contentAt ahb.getAllValuePoolRefs (s.tasks.map PoolTask.pool) place de = de := by
        apply c2
        rintro ⟨p, d⟩ hx rfl
        have := ((h3 p d).1 hx).1
        simp only at hde
        rw [hde] at this
        cases this
        exact hm hx
      refine ⟨fun _ => this, fun hp => ?_⟩
      rw [this]
      cases de with
      | mk dd ii ee tt kk =>
        cases kk with
        | freeText e => cases hp
        | valuePool pool => exact ⟨pool, rfl, rfl⟩

/-- **C57 (partial)** the deep AHB after `transform_all_value_pools` has returned, for converters that read what they need before
they await anything: the value pools to be transformed that are the first ones with their discriminator have been replaced as
described, everything else is as before. Missing: other converters (`C57_counterexample`). -/
theorem C57_ahb_partial (hm : env.IsMapping) (ho : env.Overwrites) (hr : env.toApp.ReadsFirst)
    (schedule : List (Nat × Choice)) (s : TopState A D) (h : topRun env app schedule (topInit env app ahb) = some s)
    (hout : s.outcome = some (.ok ())) (place : ElementAddr) (de : DataElement) (hde : elementAt? ahb.lines place = some de) :
    ∃ de', elementAt? (s.ahbNow ahb).lines place = some de' ∧
      (IsTransformed de → FirstWithDiscriminator ahb.lines place de → env.PoolReplaced app de de') ∧
      (¬ (IsTransformed de ∧ FirstWithDiscriminator ahb.lines place de) → de' = de) := by
  have hf := (C57_transform_partial env app ahb hm ho hr schedule s h).1 hout
  obtain ⟨de', h1, h2, _⟩ := (C57_ahb_frame env app ahb schedule s h).2.2 place de hde
  refine ⟨de', h1, fun ht hfirst => ?_, h2⟩
  obtain ⟨g1, _, g3⟩ := C76_value_pool_objects ahb
  rw [← g1] at hf
  have := (contentAt_spec ahb.getAllValuePoolRefs (s.tasks.map PoolTask.pool)
    (forall₂_map_right (R := fun de de' => (IsTransformed de → env.PoolReplaced app de de' ∧ ∀ e, ¬ env.PoolFails app de e) ∧
      (¬ IsTransformed de → de' = de)) hf) (poolRefs_nodup ahb) place de).1 ((g3 place de).2 hfirst)
  have heq : elementAt? (s.ahbNow ahb).lines place = some (contentAt ahb.getAllValuePoolRefs (s.tasks.map PoolTask.pool) place de) :=
    (elementAt?_atPlaces _ _ _).trans (by rw [hde]; rfl)
  rw [heq] at h1
  cases h1
  exact (this.1 ht).1

/-- **C77 (in full, false of the code)** after `transform_all_value_pools` every value pool of the deep AHB that is to be transformed
has been replaced as described. -/
def C77_statement : Prop :=
  ∀ (A D : Type) (env : TransformEnv A D) (app : A) (ahb : DeepAhb), env.IsMapping → env.Overwrites → env.toApp.ReadsFirst →
    ∀ schedule s, topRun env app schedule (topInit env app ahb) = some s → s.outcome = some (.ok ()) →
    ∀ place de, elementAt? ahb.lines place = some de → de.isValuePool = true → IsTransformed de →
      ∃ de', elementAt? (s.ahbNow ahb).lines place = some de' ∧ env.PoolReplaced app de de'

/-- **C77 (partial)** it holds for deep AHBs in which no two value pools share a discriminator. Missing: other deep AHBs, for which
it is false (`C77_counterexample`, `C77_second_untouched`). -/
theorem C77_all_pools_partial (hm : env.IsMapping) (ho : env.Overwrites) (hr : env.toApp.ReadsFirst)
    (distinct : ∀ x y de de', elementAt? ahb.lines x = some de → elementAt? ahb.lines y = some de' → de.isValuePool = true →
      de'.isValuePool = true → de.discriminator = de'.discriminator → x = y)
    (schedule : List (Nat × Choice)) (s : TopState A D) (h : topRun env app schedule (topInit env app ahb) = some s)
    (hout : s.outcome = some (.ok ())) (place : ElementAddr) (de : DataElement) (hde : elementAt? ahb.lines place = some de)
    (hp : de.isValuePool = true) (ht : IsTransformed de) :
    ∃ de', elementAt? (s.ahbNow ahb).lines place = some de' ∧ env.PoolReplaced app de de' := by
  obtain ⟨de', h1, h2, _⟩ := C57_ahb_partial env app ahb hm ho hr schedule s h hout place de hde
  exact ⟨de', h1, h2 ht ⟨hde, hp, fun x d hx hd he => .inl (distinct x place d de hx hde hd hp he)⟩⟩

/-- **C77** a value pool that shares its discriminator with one that is searched earlier is never modified, whatever the converter
and the schedule do. -/
theorem C77_second_untouched (schedule : List (Nat × Choice)) (s : TopState A D)
    (h : topRun env app schedule (topInit env app ahb) = some s) (first second : ElementAddr) (de de' : DataElement)
    (h1 : elementAt? ahb.lines first = some de) (h2 : elementAt? ahb.lines second = some de') (hp : de.isValuePool = true)
    (hd : de.discriminator = de'.discriminator) (hb : SearchedBefore first second) :
    elementAt? (s.ahbNow ahb).lines second = some de' := by
  obtain ⟨d, h3, h4, _⟩ := (C57_ahb_frame env app ahb schedule s h).2.2 second de' h2
  rw [h3, h4]
  rintro ⟨_, _, _, hf⟩
  rcases hf first de h1 hp hd with rfl | hb'
  · exact hb.asymm hb
  · exact hb.asymm hb'

end

/-! ## examples and counterexample -/

/-- the same value pool in two segments -/
def twiceAhb : DeepAhb :=
  { ahbMeta := { pruefidentifikator := py!"11042" },
    lines := [.mk (some py!"root") py!"X" (some 0) (some [⟨some py!"BGM", py!"Muss", some 1, [transformDe], none, none⟩])
      (some [.mk (some py!"SG4") py!"X" (some 2) (some [⟨some py!"NAD", py!"Soll", some 4, [exTextDe', transformDe, senderDe], none, none⟩]) none])] }

/-- the pool of the group below the line is returned, not that of the line itself -/
example : twiceAhb.getAllValuePoolRefs = [(⟨[0, 0], 0, 1⟩, transformDe), (⟨[0, 0], 0, 2⟩, senderDe)] := by decide +kernel
example : FirstWithDiscriminator twiceAhb.lines ⟨[0, 0], 0, 1⟩ transformDe :=
  ((C76_value_pool_objects twiceAhb).2.2 _ _).1 (by decide +kernel)
/-- the pools of an AHB without repeated discriminators -/
example : transformAhb.getAllValuePoolRefs = [(⟨[0], 0, 0⟩, transformDe), (⟨[0], 0, 2⟩, senderDe)] := by decide +kernel

def twiceSchedule : List (Nat × Choice) :=
  ([.self, .entry 0, .entry 1, .entry 1, .entry 1, .entry 0, .entry 0, .self] : List Choice).map fun c => (0, c)

/-- **C77** of two equal value pools only the first one is transformed. -/
theorem C77_counterexample : ¬ C77_statement := by
  intro h
  have hsum : topSummary (topRun goodEnv py!"E07" twiceSchedule (topInit goodEnv py!"E07" twiceAhb)) =
      some (some (.ok ()), [{ transformDe with kind := .valuePool [⟨py!"ZE01", py!"Einzug", py!"X"⟩, ⟨py!"ZE03", py!"Wechsel", py!"X [1]"⟩] }, senderDe]) := by
    decide +kernel
  cases hrun : topRun goodEnv py!"E07" twiceSchedule (topInit goodEnv py!"E07" twiceAhb) with
  | none => rw [hrun] at hsum; cases hsum
  | some s =>
    rw [hrun] at hsum
    simp only [topSummary, Option.map_some, Option.some.injEq, Prod.mk.injEq] at hsum
    have hde : elementAt? twiceAhb.lines ⟨[0], 0, 0⟩ = some transformDe := by decide +kernel
    obtain ⟨de', h1, h2⟩ := h _ _ goodEnv py!"E07" twiceAhb (by simp [TransformEnv.IsMapping, goodEnv, raceEnv]) (fun _ _ _ _ => rfl)
      (fun d => .inr ⟨_, rfl, .suspend .ret⟩)
      twiceSchedule s hrun hsum.1 ⟨[0], 0, 0⟩ transformDe hde rfl ⟨[], rfl, by decide, by decide⟩
    have hu := C77_second_untouched goodEnv py!"E07" twiceAhb twiceSchedule s hrun ⟨[0, 0], 0, 1⟩ ⟨[0], 0, 0⟩ transformDe transformDe
      (by decide +kernel) hde rfl rfl (.below 0 0 [] 0 1 0 0)
    rw [hu] at h1
    cases h1
    obtain ⟨d, p, n, pool', e1, e2, e3, _, e5⟩ := h2
    have e4 := congrArg DataElement.kind e3
    cases e4
    obtain ⟨new, e6, _, e8⟩ := (e5 1 ⟨py!"E03", py!"Wechsel", py!"X [1]"⟩ rfl).2 (fun j e' hj he' => by
      rcases j with _ | _ | j
      · omega
      · omega
      · cases he')
    cases e8
    cases e6

/-- the deep AHB after the same run -/
example : ((topRun goodEnv py!"E07" twiceSchedule (topInit goodEnv py!"E07" twiceAhb)).map fun s =>
      ((s.ahbNow twiceAhb).lines.flatMap fun g => [elementAt? [g] ⟨[0], 0, 0⟩, elementAt? [g] ⟨[0, 0], 0, 1⟩, elementAt? [g] ⟨[0, 0], 0, 2⟩])) =
    some [some transformDe, some { transformDe with kind := .valuePool [⟨py!"ZE01", py!"Einzug", py!"X"⟩, ⟨py!"ZE03", py!"Wechsel", py!"X [1]"⟩] },
      some senderDe] := by
  decide +kernel
/-- an AHB in which no two value pools share a discriminator -/
example : ∀ x y de de', elementAt? transformAhb.lines x = some de → elementAt? transformAhb.lines y = some de' → de.isValuePool = true →
    de'.isValuePool = true → de.discriminator = de'.discriminator → x = y := by
  intro x y de de' h1 h2 p1 p2 he
  have m1 := (mem_searchOrder transformAhb.lines x de).2 ⟨h1, p1⟩
  have m2 := (mem_searchOrder transformAhb.lines y de').2 ⟨h2, p2⟩
  have hs : searchOrder transformAhb.lines 0 = [(⟨[0], 0, 0⟩, transformDe), (⟨[0], 0, 2⟩, senderDe)] := by decide +kernel
  rw [hs] at m1 m2
  simp only [List.mem_cons, Prod.mk.injEq, List.not_mem_nil, or_false] at m1 m2
  rcases m1 with ⟨rfl, rfl⟩ | ⟨rfl, rfl⟩ <;> rcases m2 with ⟨rfl, rfl⟩ | ⟨rfl, rfl⟩
  · rfl
  · exact absurd he (by decide)
  · exact absurd he (by decide)
  · rfl

end Verif
