import Verif.Spec.LocationOutcome
import Verif.Props.LocationLayers
import Verif.Props.UnknownGroup
import Verif.Proofs.DeepRaises
/-! the outcome of `determine_locations` for every list of lines -/

namespace Verif

theorem sharedStart_eq {α : Type} [DecidableEq α] (a b : List α) : sharedStart a b = lcp a b := by
  induction a generalizing b with
  | nil => cases b <;> rfl
  | cons x a ih =>
    cases b with
    | nil => rfl
    | cons y b => simp only [sharedStart, lcp, ih]

/-! ## popping -/

theorem leavePops_add (k : Option PyStr) (m n : Nat) (l : List AhbLocationLayer) :
    leavePops k (m + n) l = (leavePops k m l).bind (leavePops k n) := by
  induction m generalizing l with
  | zero => simp [leavePops, Except.bind]
  | succ m ih =>
    rw [Nat.add_right_comm]
    simp only [leavePops, bind, Except.bind]
    cases pyPop l with
    | error e => rfl
    | ok l1 =>
      dsimp only
      cases pyLast l1 with
      | error e => rfl
      | ok x =>
        dsimp only
        split
        · cases pyPop l1 with
          | error e => rfl
          | ok l2 => exact ih l2
        · exact ih l1

theorem leavePops_all {k : Option PyStr} {l : List AhbLocationLayer} (hl : l ≠ []) (hno : ∀ x ∈ l, x.segmentGroupKey ≠ k) :
    leavePops k l.length l = .error .valueError := by
  have hpos : 0 < l.length := List.length_pos_iff.2 hl
  have h1 : l.length = (l.length - 1) + 1 := by omega
  rw [h1, leavePops_add, leavePops_none (by omega) (fun i x _ _ hx => hno x (List.mem_of_getElem? hx))]
  have h2 : l.length - (l.length - 1) = 1 := by omega
  rw [h2]
  cases l with
  | nil => exact absurd rfl hl
  | cons x l => simp [Except.bind, leavePops, pyPop, pyLast, bind]

theorem nodup_getElem {α : Type} {l : List α} (h : l.Nodup) {i j : Nat} {x : α} (hi : l[i]? = some x) (hj : l[j]? = some x) : i = j := by
  obtain ⟨h1, h2⟩ := List.getElem?_eq_some_iff.1 hi
  obtain ⟨h3, h4⟩ := List.getElem?_eq_some_iff.1 hj
  unfold List.Nodup at h
  rw [List.pairwise_iff_getElem] at h
  rcases Nat.lt_trichotomy i j with hlt | heq | hlt
  · exact absurd (h2.trans h4.symm) (h i j h1 h3 hlt)
  · exact heq
  · exact absurd (h4.trans h2.symm) (h j i h3 h1 hlt)

/-! ## the open groups -/

/-- what is known about the open groups -/
structure OpenOk (s : Sgh) (prev : Option PyStr) (opened : List (Option PyStr)) (a : List Nat) : Prop where
  addr : s.keyAt? a = some prev
  sub : opened.Sublist (s.pathKeys a)
  head : opened.head? = some none
  last : opened.getLast? = some prev

theorem mem_pathKeys {s : Sgh} {a : List Nat} (sa : (s.at? a).isSome = true) {k : Option PyStr} (h : k ∈ s.pathKeys a) :
    ∃ j, j ≤ a.length ∧ s.keyAt? (a.take j) = some k := by
  obtain ⟨j, hj⟩ := List.mem_iff_getElem?.1 h
  have hlt := (List.getElem?_eq_some_iff.1 hj).1
  rw [Sgh.pathKeys_length sa] at hlt
  exact ⟨j, by omega, by rw [← Sgh.pathKeys_getElem? sa j (by omega)]; exact hj⟩

/-- what the open groups share with the path of the new group is shared with the path of the current group -/
theorem lcp_open {s : Sgh} (hd : s.KeysDistinct) {opened : List (Option PyStr)} {a b : List Nat} {ka kb : Option PyStr}
    (ha : s.keyAt? a = some ka) (hb : s.keyAt? b = some kb) (hsub : opened.Sublist (s.pathKeys a)) :
    lcp opened (s.pathKeys (lcp a b)) = lcp opened (s.pathKeys b) := by
  have sa := Sgh.isSome_of_keyAt ha
  have sb := Sgh.isSome_of_keyAt hb
  have hpre : s.pathKeys (lcp a b) <+: s.pathKeys b := by
    rw [List.prefix_iff_eq_take.1 (lcp_prefix_right a b), ← Sgh.pathKeys_take sb]
    exact List.take_prefix _ _
  have hpa : s.pathKeys (lcp a b) <+: s.pathKeys a := by
    rw [List.prefix_iff_eq_take.1 (lcp_prefix_left a b), ← Sgh.pathKeys_take sa]
    exact List.take_prefix _ _
  have sl : (s.at? (lcp a b)).isSome = true := by
    rw [List.prefix_iff_eq_take.1 (lcp_prefix_left a b)]; exact Sgh.at?_take sa _
  have hC : s.pathKeys (lcp a b) = lcp (s.pathKeys a) (s.pathKeys b) :=
    (lcp_greatest hpa hpre).eq_of_length (by rw [Sgh.pathKeys_length sl, Sgh.pathKeys_lcp hd sa sb])
  have h1 : lcp opened (s.pathKeys (lcp a b)) <+: lcp opened (s.pathKeys b) :=
    lcp_greatest (lcp_prefix_left _ _) ((lcp_prefix_right _ _).trans hpre)
  refine h1.eq_of_length (Nat.le_antisymm h1.length_le ?_)
  refine (lcp_greatest (lcp_prefix_left _ _) ?_).length_le
  rw [hC]
  refine lcp_greatest ?_ (lcp_prefix_right _ _)
  -- each shared key sits at the same place in the path of the current group
  have hq := lcp_prefix_right opened (s.pathKeys b)
  have hq1 := lcp_prefix_left opened (s.pathKeys b)
  generalize lcp opened (s.pathKeys b) = q at hq hq1
  rw [List.prefix_iff_getElem?]
  intro i hi
  have hbi : (s.pathKeys b)[i]? = some q[i] := by
    rw [List.prefix_iff_getElem?] at hq
    exact hq i hi
  have hib : i ≤ b.length := by
    have := (List.getElem?_eq_some_iff.1 hbi).1
    rw [Sgh.pathKeys_length sb] at this
    omega
  have hm : q[i] ∈ s.pathKeys a := hsub.subset (hq1.subset (List.getElem_mem hi))
  obtain ⟨j, hj, hja⟩ := mem_pathKeys sa hm
  rw [Sgh.pathKeys_getElem? sb i hib] at hbi
  have hij := congrArg List.length (hd.keyAt_inj hja hbi)
  rw [List.length_take, List.length_take, Nat.min_eq_left hj, Nat.min_eq_left hib] at hij
  subst hij
  rw [Sgh.pathKeys_getElem? sa j hj, hja]

/-- leaving a group -/
theorem leave_outcome {s : Sgh} (hd : s.KeysDistinct) (hroot : s.segmentGroup = none) {opened : List (Option PyStr)} {a b : List Nat}
    {prev k : Option PyStr} (ho : OpenOk s prev opened a) (hb : s.keyAt? b = some k) (hk : k ≠ prev) {x ca : AhbLocation}
    (hx : x.layers.map (·.segmentGroupKey) = opened) (hca : ca.layers.map (·.segmentGroupKey) = s.pathKeys (lcp a b))
    (hps : ca.pseudo = true) :
    ∃ d, calculateDistance x ca = .ok d ∧ 1 ≤ (sharedStart opened (s.pathKeys b)).length ∧
      (k ∉ opened → leavePops k d.layersUp x.layers = .ok (x.layers.take (sharedStart opened (s.pathKeys b)).length)) ∧
      (k ∈ opened → k = none ∨ 1 < (sharedStart opened (s.pathKeys b)).length →
        leavePops k d.layersUp x.layers = .ok (x.layers.take ((sharedStart opened (s.pathKeys b)).length - 1))) ∧
      (k ∈ opened → k ≠ none → (sharedStart opened (s.pathKeys b)).length = 1 →
        leavePops k d.layersUp x.layers = .error .valueError) := by
  obtain ⟨ha, hsub, hhead, hlast⟩ := ho
  have sa := Sgh.isSome_of_keyAt ha
  have sb := Sgh.isSome_of_keyAt hb
  rw [sharedStart_eq]
  have hlen : x.layers.length = opened.length := by rw [← hx, List.length_map]
  have hnd : opened.Nodup := (hd.pathKeys_nodup sa).sublist hsub
  have hcomm : (commonLayers true x.layers ca.layers).length = (lcp opened (s.pathKeys b)).length := by
    rw [commonLayers_true, hx, hca, lcp_open hd ha hb hsub, List.length_take]
    have := (lcp_prefix_left opened (s.pathKeys b)).length_le
    omega
  have hone : 1 ≤ (lcp opened (s.pathKeys b)).length := by
    have h2 := Sgh.pathKeys_head s b
    rw [hroot] at h2
    cases hop : opened with
    | nil => rw [hop] at hhead; cases hhead
    | cons u us =>
      cases hpb : s.pathKeys b with
      | nil => rw [hpb] at h2; cases h2
      | cons v vs =>
        rw [hop] at hhead; rw [hpb] at h2
        cases hhead; cases h2
        simp [lcp]
  have hle1 := (lcp_prefix_left opened (s.pathKeys b)).length_le
  have hle2 : (lcp opened (s.pathKeys b)).length ≤ ca.layers.length := by
    have h1 := lcp_open hd ha hb hsub
    have h2 := (lcp_prefix_right opened (s.pathKeys (lcp a b))).length_le
    rw [h1, ← hca, List.length_map] at h2
    exact h2
  have hdist : calculateDistance x ca = .ok { layersUp := opened.length - (lcp opened (s.pathKeys b)).length, layersDown := ca.layers.length - (lcp opened (s.pathKeys b)).length } := by
    unfold calculateDistance findCommonAncestor
    rw [hps, Bool.or_true, locationNew_of_valid (by intro h; rw [h] at hcomm; simp at hcomm; omega) rfl rfl]
    simp only [bind, Except.bind, hcomm, hlen]
    unfold AhbLocationDistance.new
    rw [if_neg (by omega)]
    congr 2 <;> omega
  refine ⟨_, hdist, hone, ?_, ?_⟩
  · intro hno
    dsimp only
    rw [leavePops_none (by omega)]
    · congr 2; omega
    · intro i l _ _ hl hlk
      exact hno (by rw [← hx, List.mem_map]; exact ⟨l, List.mem_of_getElem? hl, hlk⟩)
  -- the group is open
  have hopen : k ∈ opened → ∃ j, j + 1 < opened.length ∧ opened[j]? = some k ∧ (lcp opened (s.pathKeys b)).length ≤ j + 1 ∧
      leavePops k (opened.length - j - 1) x.layers = .ok (x.layers.take j) ∧ (∀ l ∈ x.layers.take j, l.segmentGroupKey ≠ k) := by
    intro hko
    obtain ⟨j, hj⟩ := List.mem_iff_getElem?.1 hko
    have hjlt := (List.getElem?_eq_some_iff.1 hj).1
    have huniq : ∀ i, opened[i]? = some k → i = j := by
      intro i hi
      exact nodup_getElem hnd hi hj
    have hjl : j + 1 < opened.length := by
      rcases Nat.lt_or_ge (j + 1) opened.length with h | h
      · exact h
      · exfalso
        rw [List.getLast?_eq_getElem?, show opened.length - 1 = j by omega, hj] at hlast
        exact hk (Option.some.inj hlast)
    have hkeys : ∀ (i : Nat) (l : AhbLocationLayer), x.layers[i]? = some l → opened[i]? = some l.segmentGroupKey := by
      intro i l hi
      rw [← hx, List.getElem?_map, hi]; rfl
    refine ⟨j, hjl, hj, ?_, ?_, ?_⟩
    · -- the key sits at the end of its own path
      apply Nat.le_of_not_lt
      intro hlt
      have h1 := lcp_prefix_left opened (s.pathKeys b)
      have h2 := lcp_prefix_right opened (s.pathKeys b)
      have h3 := h2.length_le
      rw [Sgh.pathKeys_length sb] at h3
      rw [List.prefix_iff_getElem?] at h1 h2
      have e1 := h1 j (by omega)
      have e2 := h2 j (by omega)
      rw [hj] at e1
      rw [← Option.some.inj e1, Sgh.pathKeys_getElem? sb j (by omega)] at e2
      have := congrArg List.length (hd.keyAt_inj e2 hb)
      rw [List.length_take] at this
      omega
    · rw [leavePops_last (by omega) (by omega)]
      · congr 2; omega
      · intro i l h1 h2 hl hlk
        have := huniq _ (hlk ▸ hkeys _ l hl)
        omega
      · intro l hl
        rw [show x.layers.length - (opened.length - j - 1) - 1 = j by omega] at hl
        have := hkeys _ l hl
        rw [hj] at this
        exact (Option.some.inj this).symm
    · intro l hl hlk
      obtain ⟨i, hi⟩ := List.mem_iff_getElem?.1 hl
      rw [List.getElem?_take] at hi
      split at hi
      · next hij =>
        have := huniq _ (hlk ▸ hkeys _ l hi)
        omega
      · cases hi
  constructor
  · intro hko hcase
    obtain ⟨j, hjl, hj, hm, hpop, hno⟩ := hopen hko
    dsimp only
    rcases Nat.lt_or_ge j (lcp opened (s.pathKeys b)).length with hlt | hge
    · have hmj : (lcp opened (s.pathKeys b)).length = j + 1 := by omega
      rw [hmj, show opened.length - (j + 1) = opened.length - j - 1 by omega, hpop]
      simp
    · have h2 : 1 < (lcp opened (s.pathKeys b)).length := by
        rcases hcase with rfl | h
        · exfalso
          -- the root is the first open group
          have h0 : opened[0]? = some none := by rw [← List.head?_eq_getElem?]; exact hhead
          have := nodup_getElem hnd h0 hj
          omega
        · exact h
      have hsplit : opened.length - (lcp opened (s.pathKeys b)).length =
          (opened.length - j - 1) + (j + 1 - (lcp opened (s.pathKeys b)).length) := by omega
      rw [hsplit, leavePops_add, hpop]
      simp only [Except.bind]
      rw [leavePops_none (by rw [List.length_take]; omega) (fun i l _ _ hl => hno l (List.mem_of_getElem? hl))]
      rw [List.take_take, List.length_take]
      congr 2
      omega
  · intro hko hkn hm1
    obtain ⟨j, hjl, hj, hm, hpop, hno⟩ := hopen hko
    dsimp only
    have hj0 : 0 < j := by
      rcases Nat.eq_zero_or_pos j with rfl | h
      · exfalso
        rw [← List.head?_eq_getElem?, hhead] at hj
        exact hkn (Option.some.inj hj).symm
      · exact h
    have hsplit : opened.length - (lcp opened (s.pathKeys b)).length = (opened.length - j - 1) + j := by omega
    rw [hsplit, leavePops_add, hpop]
    simp only [Except.bind]
    have hl : (x.layers.take j).length = j := by rw [List.length_take]; omega
    have := leavePops_all (l := x.layers.take j) (by intro h; rw [h] at hl; simp at hl; omega) hno
    rw [hl] at this
    exact this

/-! ## the parts of a step -/

theorem optMatches_false_iff {r : Re} {P : PyStr → Prop} (h : ∀ s, (r.fullMatch s).isSome = true ↔ P s) (o : Option PyStr) :
    optMatches r o = false ↔ ∃ s, o = some s ∧ ¬ P s := by
  rw [← Bool.not_eq_true, optMatches_iff h]
  simp

theorem initialLayers_outcome {s : Sgh} (hv : s.LayersValid) {st : LocState} (hinv : st.Ok s) {n : Nat}
    (hres : st.result = [] ↔ n = 0) (hne : st.layers ≠ []) (q : Option PyStr) :
    initialLayers s st q =
      if n = 0 ∧ optMatches openingQualifierRe q = false then .error .valueError else .ok (baseLayers s st q) := by
  split
  · next h =>
    have hr := hres.2 h.1
    obtain ⟨v1, v2⟩ := hv [] s rfl
    unfold initialLayers
    rw [hinv.1 hr, hr]
    simp only [pyLast, List.getLast?_singleton, bind, Except.bind, List.length_nil, and_self, if_true]
    have hs : segmentCode3Re.fullMatch s.openingSegment ≠ none := by
      intro h'; rw [h'] at v2; cases v2
    unfold AhbLocationLayer.new
    simp [v1, h.2, hs]
  · next h =>
    refine initialLayers_valid hv hinv (fun hr => ?_) hne
    have := hres.1 hr
    simpa [this] using h

theorem layerNew_error_iff {k seg q : Option PyStr} (hk : optMatches sgKeyRe k = true) (e : Exc) :
    AhbLocationLayer.new k seg q = .error e ↔ (seg = none ∧ e = .typeError) ∨
      (seg ≠ none ∧ (optMatches segmentCode3Re seg = false ∨ optMatches openingQualifierRe q = false) ∧ e = .valueError) := by
  unfold AhbLocationLayer.new
  rw [hk]
  cases seg with
  | none => simp [eq_comm (a := e)]
  | some o =>
    have ho : optMatches segmentCode3Re (some o) = (segmentCode3Re.fullMatch o).isSome := rfl
    rw [ho]
    simp only [Bool.not_true, Bool.false_eq_true, if_false, reduceCtorEq, false_and, ne_eq, not_false_eq_true, true_and, false_or]
    cases hm : segmentCode3Re.fullMatch o with
    | none => simp [eq_comm (a := e)]
    | some m => cases hq : optMatches openingQualifierRe q <;> simp [eq_comm (a := e)]

theorem appendLocation_error_iff {st : LocState} {line : AhbLine} {seg : Option PyStr} {layers : List AhbLocationLayer} (hne : layers ≠ [])
    (e : Exc) : appendLocation st line seg layers = .error e ↔
      (optMatches segmentCode3Re seg = false ∨ optMatches dataElement4Re line.dataElement = false) ∧ e = .valueError := by
  unfold appendLocation AhbLocation.new
  rw [if_neg (by cases layers <;> simp_all)]
  cases h1 : optMatches segmentCode3Re seg with
  | false => simp [bind, Except.bind, eq_comm (a := e)]
  | true =>
    cases h2 : optMatches dataElement4Re line.dataElement with
    | false => simp [bind, Except.bind, eq_comm (a := e)]
    | true => simp [bind, Except.bind, pure, Except.pure]

/-- a new layer, and the location with it -/
def openLayer (st : LocState) (line : AhbLine) (seg q : Option PyStr) (layers : List AhbLocationLayer) : PyRes LocState := do
  let newLayer ← AhbLocationLayer.new line.segmentGroupKey seg q
  appendLocation st line seg (layers ++ [newLayer])

theorem openLayer_error_iff {st : LocState} {line : AhbLine} {seg q : Option PyStr} {layers : List AhbLocationLayer}
    (hk : optMatches sgKeyRe line.segmentGroupKey = true) (e : Exc) :
    openLayer st line seg q layers = .error e ↔ (seg = none ∧ e = .typeError) ∨
      (seg ≠ none ∧ (optMatches segmentCode3Re seg = false ∨ optMatches dataElement4Re line.dataElement = false ∨
        optMatches openingQualifierRe q = false) ∧ e = .valueError) := by
  unfold openLayer
  have h := layerNew_error_iff (seg := seg) (q := q) hk
  cases hn : AhbLocationLayer.new line.segmentGroupKey seg q with
  | error x =>
    simp only [bind, Except.bind]
    have hx := (h x).1 hn
    constructor
    · intro he
      cases he
      rcases hx with hx | ⟨h1, h2 | h2, h3⟩
      · exact .inl hx
      · exact .inr ⟨h1, .inl h2, h3⟩
      · exact .inr ⟨h1, .inr (.inr h2), h3⟩
    · intro he
      congr 1
      rcases hx with ⟨h1, rfl⟩ | ⟨h1, _, rfl⟩ <;> rcases he with ⟨h2, rfl⟩ | ⟨h2, _, rfl⟩
      · rfl
      · exact absurd h1 h2
      · exact absurd h2 h1
      · rfl
  | ok nl =>
    simp only [bind, Except.bind]
    rw [appendLocation_error_iff (by simp)]
    have hx : ∀ e, ¬ _ := fun e he => by
      have := (h e).2 he
      rw [hn] at this
      cases this
    have hseg : seg ≠ none := fun hs => hx .typeError (.inl ⟨hs, rfl⟩)
    have hq : optMatches openingQualifierRe q ≠ false := fun hq => hx .valueError (.inr ⟨hseg, .inr hq, rfl⟩)
    simp [hseg, hq]

/-! ## one step -/

theorem known_raises {s : Sgh} {lines : List AhbLine} {changes : List (AhbLine × Change)} {n : Nat} {line : AhbLine}
    {opened : List (Option PyStr)} (hk : ¬ UnknownGroup s line.segmentGroupKey)
    (hb : ¬ GoesTooFarBack s opened (previousKeyAt lines n) line.segmentGroupKey) (e : Exc) :
    LineRaises s lines changes n line opened e ↔ (n = 0 ∧ BadQualifierAt lines 0 ∧ e = .valueError) ∨
      (n = 0 → ¬ BadQualifierAt lines 0) ∧ ((ReportsChange changes n ∧ nextSegmentAt lines n = none ∧ e = .typeError) ∨
        ((ReportsChange changes n → nextSegmentAt lines n ≠ none) ∧ BadCodeAt lines changes n line ∧ e = .valueError)) := by
  constructor
  · intro h
    cases h with
    | firstQualifier h1 h2 => exact .inl ⟨h1, h2, rfl⟩
    | unknownFirst _ h => exact absurd h hk
    | unknown _ h => exact absurd h hk
    | tooFarBack h => exact absurd h hb
    | noSegment h1 _ _ h2 h3 => exact .inr ⟨h1, .inl ⟨h2, h3, rfl⟩⟩
    | code _ h1 h2 =>
      by_cases h0 : n = 0 ∧ BadQualifierAt lines 0
      · exact .inl ⟨h0.1, h0.2, rfl⟩
      · exact .inr ⟨fun a b => h0 ⟨a, b⟩, .inr ⟨h1, h2, rfl⟩⟩
  · rintro (⟨h1, h2, rfl⟩ | ⟨h1, ⟨h2, h3, rfl⟩ | ⟨h2, h3, rfl⟩⟩)
    · exact .firstQualifier h1 h2
    · exact .noSegment h1 hk hb h2 h3
    · exact .code hk h2 h3

theorem locStep_outcome {s : Sgh} (hd : s.KeysDistinct) (hroot : s.segmentGroup = none) (hv : s.LayersValid) {lines : List AhbLine}
    {n : Nat} {line : AhbLine} (hline : lines[n]? = some line) {opened : List (Option PyStr)} {a : List Nat}
    (ho : OpenOk s (previousKeyAt lines n) opened a) {st : LocState} (hinv : st.Ok s) (hres : st.result = [] ↔ n = 0)
    (hkeys : st.layers.map (·.segmentGroupKey) = opened) (e : Exc) :
    locStep s st ((line, changeAt s lines n line), nextSegmentAt lines n, nextQualifierAt lines n) = .error e ↔
      LineRaises s lines (changesLoop s ChangeState.init (items lines)) n line opened e := by
  have hchange : ReportsChange (changesLoop s ChangeState.init (items lines)) n ↔ changeAt s lines n line ≠ .stay := by
    unfold ReportsChange
    rw [changes_getElem?, hline]
    constructor
    · rintro ⟨l, c, h1, h2⟩; cases h1; exact h2
    · exact fun h => ⟨line, _, rfl, h⟩
  have hbadq : ∀ m, BadQualifierAt lines m ↔ optMatches openingQualifierRe (nextQualifierAt lines m) = false :=
    fun m => (optMatches_false_iff openingQualifierRe_iff _).symm
  have hcode : BadCodeAt lines (changesLoop s ChangeState.init (items lines)) n line ↔
      (optMatches segmentCode3Re (nextSegmentAt lines n) = false ∨ optMatches dataElement4Re line.dataElement = false ∨
        (changeAt s lines n line ≠ .stay ∧ optMatches openingQualifierRe (nextQualifierAt lines n) = false)) := by
    unfold BadCodeAt
    rw [optMatches_false_iff segmentCode3Re_iff, optMatches_false_iff dataElement4Re_iff, hchange, hbadq]
  have hone : opened ≠ [] := by intro h; have := ho.head; rw [h] at this; cases this
  have hne : st.layers ≠ [] := by intro h; rw [h] at hkeys; exact hone hkeys.symm
  have hbk := baseLayers_keys hinv (nextQualifierAt lines n)
  have hbne : baseLayers s st (nextQualifierAt lines n) ≠ [] := by
    intro h; rw [h, hkeys] at hbk; exact hone hbk.symm
  have hinit := initialLayers_outcome hv hinv hres hne (nextQualifierAt lines n)
  obtain ⟨c1, c2⟩ := changeAt_sound s lines n line hline
  obtain ⟨n1, n2⟩ := changeAt_ne s lines n line hline
  have sa := Sgh.isSome_of_keyAt ho.addr
  -- what remains to be shown once the group is known and can be reached
  have fin : ∀ (b : List Nat) (body : List AhbLocationLayer → PyRes LocState) (stays : Bool),
      s.keyAt? b = some line.segmentGroupKey → ¬ GoesTooFarBack s opened (previousKeyAt lines n) line.segmentGroupKey →
      (stays = true ↔ changeAt s lines n line = .stay) →
      (∀ base, base = baseLayers s st (nextQualifierAt lines n) → (n = 0 → optMatches openingQualifierRe (nextQualifierAt lines n) = true) →
        ∃ layers, body base = if stays = true then appendLocation st line (nextSegmentAt lines n) base
          else openLayer st line (nextSegmentAt lines n) (nextQualifierAt lines n) layers) →
      ((initialLayers s st (nextQualifierAt lines n)).bind body = .error e ↔
        LineRaises s lines (changesLoop s ChangeState.init (items lines)) n line opened e) := by
    intro b body stays hb hback hst hbody
    have hkn : ¬ UnknownGroup s line.segmentGroupKey := fun h => h b hb
    have hkv : optMatches sgKeyRe line.segmentGroupKey = true := by
      obtain ⟨g, hg, hgk⟩ := Sgh.keyAt?_some.1 hb
      rw [← hgk]; exact (hv b g hg).1
    rw [known_raises hkn hback, hchange, hcode, hbadq, hinit]
    by_cases h0 : n = 0 ∧ optMatches openingQualifierRe (nextQualifierAt lines n) = false
    · rw [if_pos h0]
      obtain ⟨h1, h2⟩ := h0
      subst h1
      simp [Except.bind, h2, eq_comm (a := e)]
    · rw [if_neg h0]
      have h0' : n = 0 → optMatches openingQualifierRe (nextQualifierAt lines n) = true := fun hn => by simpa [hn] using h0
      have hz : ¬ (n = 0 ∧ optMatches openingQualifierRe (nextQualifierAt lines 0) = false ∧ e = .valueError) := by
        rintro ⟨rfl, h, _⟩; exact h0 ⟨rfl, h⟩
      have hz' : n = 0 → ¬ optMatches openingQualifierRe (nextQualifierAt lines 0) = false := by
        rintro rfl h; exact h0 ⟨rfl, h⟩
      simp only [Except.bind, hz, false_or]
      rw [and_iff_right hz']
      obtain ⟨layers, hbase⟩ := hbody _ rfl h0'
      rw [hbase]
      cases stays with
      | true =>
        have hs := hst.1 rfl
        simp only [if_true]
        rw [appendLocation_error_iff hbne]
        simp [hs]
      | false =>
        have hs : changeAt s lines n line ≠ .stay := fun h => by simpa using hst.2 h
        simp only [Bool.false_eq_true, if_false]
        rw [openLayer_error_iff hkv]
        simp [hs]
  have hsame : line.segmentGroupKey = previousKeyAt lines n → ¬ GoesTooFarBack s opened (previousKeyAt lines n) line.segmentGroupKey :=
    fun h hb => hb.2.1 h
  cases hc : changeAt s lines n line with
  | stay =>
    have hk : line.segmentGroupKey = previousKeyAt lines n := by
      by_cases hk : line.segmentGroupKey = previousKeyAt lines n
      · exact hk
      · have := c2 hk; rw [hc] at this; split at this <;> cases this
    refine fin a (fun layers => appendLocation st line (nextSegmentAt lines n) layers) true (by rw [hk, ho.addr]) (hsame hk) (by simp [hc])
      fun base hb _ => ⟨[], by simp⟩
  | moveToNeighbourSameKey =>
    have hk : line.segmentGroupKey = previousKeyAt lines n := by
      by_cases hk : line.segmentGroupKey = previousKeyAt lines n
      · exact hk
      · have := c2 hk; rw [hc] at this; split at this <;> cases this
    refine fin a (fun layers => (pyPop layers).bind fun layers =>
      openLayer st line (nextSegmentAt lines n) (nextQualifierAt lines n) layers) false (by rw [hk, ho.addr]) (hsame hk) (by simp [hc])
      fun base hb _ => ⟨base.dropLast, ?_⟩
    subst hb
    have hp : pyPop (baseLayers s st (nextQualifierAt lines n)) = .ok (baseLayers s st (nextQualifierAt lines n)).dropLast := by
      cases h : baseLayers s st (nextQualifierAt lines n) with
      | nil => exact absurd h hbne
      | cons x l => rfl
    rw [hp]; rfl
  | diveIntoSubGroup =>
    have hk : line.segmentGroupKey ≠ previousKeyAt lines n := by
      intro hk
      rcases c1 hk with h | h <;> rw [hc] at h <;> cases h
    have hbelow : s.sgIsHierarchicallyBelow line.segmentGroupKey (previousKeyAt lines n) = true := by
      have := c2 hk
      rw [hc] at this
      split at this
      · assumption
      · cases this
    obtain ⟨_, a', t, ht, h1, h2⟩ := (Sgh.sgBelow_addr _ _ _).1 hbelow
    obtain rfl := hd.keyAt_inj ho.addr h1
    have hback : ¬ GoesTooFarBack s opened (previousKeyAt lines n) line.segmentGroupKey := by
      rintro ⟨_, _, hm, _⟩
      obtain ⟨j, hj, hkj⟩ := mem_pathKeys sa (ho.sub.subset hm)
      have h3 := congrArg List.length (hd.keyAt_inj h2 hkj)
      have h4 : t.length ≠ 0 := by simpa using ht
      rw [List.length_append, List.length_take] at h3
      omega
    refine fin _ (fun layers => openLayer st line (nextSegmentAt lines n) (nextQualifierAt lines n) layers) false h2 hback (by simp [hc])
      fun base hb _ => ⟨base, by simp⟩
  | moveToNeighbourDifferentKey => exact absurd hc n1
  | leaveToParent => exact absurd hc n2
  | leaveToParentAndDive =>
    have hk : line.segmentGroupKey ≠ previousKeyAt lines n := by
      intro hk
      rcases c1 hk with h | h <;> rw [hc] at h <;> cases h
    have hbelow : ¬ s.sgIsHierarchicallyBelow line.segmentGroupKey (previousKeyAt lines n) = true := by
      intro h
      have := c2 hk
      rw [if_pos h, hc] at this; cases this
    by_cases hn0 : n = 0
    · -- the first line: the key is unknown
      have hun : UnknownGroup s line.segmentGroupKey := by
        intro b hb
        subst hn0
        have ha0 : a = [] := hd.keyAt_inj ho.addr (by simp [Sgh.keyAt?, hroot, previousKeyAt])
        by_cases hbn : b = []
        · subst hbn
          have := ho.addr
          rw [ha0, hb] at this
          exact hk (Option.some.inj this)
        · exact hbelow ((Sgh.sgBelow_addr _ _ _).2 ⟨hk, [], b, hbn, ha0 ▸ ho.addr, by simpa using hb⟩)
      have hr : st.result = [] := hres.2 hn0
      have hl : locStep s st ((line, .leaveToParentAndDive), nextSegmentAt lines n, nextQualifierAt lines n) = .error .valueError := by
        simp only [locStep, hinit, bind]
        split
        · rfl
        · simp [Except.bind, pyLast, hr]
      rw [hl]
      constructor
      · intro h; cases h; exact .unknownFirst hn0 hun
      · intro h
        cases h with
        | unknown h _ => exact absurd hn0 h
        | noSegment _ h => exact absurd hun h
        | firstQualifier | unknownFirst | tooFarBack | code => rfl
    · have hrne : st.result ≠ [] := fun h => hn0 (hres.1 h)
      have hbl : baseLayers s st (nextQualifierAt lines n) = st.layers := by simp [baseLayers, hrne]
      cases hlr : st.result.getLast? with
      | none => exact absurd (List.getLast?_eq_none_iff.1 hlr) hrne
      | some lr =>
      obtain ⟨e1, e2, e3⟩ := hinv.2 lr hlr
      have hkeys' : lr.2.layers.map (·.segmentGroupKey) = opened := by rw [e1, hkeys]
      cases hll : lr.2.layers.getLast? with
      | none => exact absurd (e1 ▸ List.getLast?_eq_none_iff.1 hll) e2
      | some ll =>
      have hlk : ll.segmentGroupKey = previousKeyAt lines n := by
        have h1 := ho.last
        rw [← hkeys', List.getLast?_map, hll] at h1
        exact Option.some.inj h1
      by_cases hun : UnknownGroup s line.segmentGroupKey
      · have hca : findCommonAncestorFromSgh (previousKeyAt lines n) line.segmentGroupKey s = .error .attributeError := by
          refine (C81_common_ancestor (fun a' g hg => ?_) _ _).2 ?_ ?_
          · obtain ⟨v1, v2⟩ := hv a' g hg
            exact ⟨(optMatches_iff sgKeyRe_iff _).1 v1, (segmentCode3Re_iff _).1 v2⟩
          · obtain ⟨g, h1, h2⟩ := Sgh.keyAt?_some.1 ho.addr
            exact ⟨a, g, h1, h2⟩
          · exact fun b g hg hgk => hun b (Sgh.keyAt?_some.2 ⟨g, hg, hgk⟩)
        have hl : locStep s st ((line, .leaveToParentAndDive), nextSegmentAt lines n, nextQualifierAt lines n) =
            .error .attributeError := by
          simp only [locStep, hinit, bind]
          rw [if_neg (fun h => hn0 h.1)]
          simp only [Except.bind, pyLast, hlr, hll, hlk, hca]
        rw [hl]
        constructor
        · intro h; cases h; exact .unknown hn0 hun
        · intro h
          cases h with
          | firstQualifier h _ => exact absurd h hn0
          | unknownFirst h _ => exact absurd h hn0
          | unknown => rfl
          | tooFarBack h => obtain ⟨_, _, _, b, hb, _⟩ := h; exact absurd hb (hun b)
          | noSegment _ h => exact absurd hun h
          | code h => exact absurd hun h
      · obtain ⟨b, hb⟩ : ∃ b, s.keyAt? b = some line.segmentGroupKey := by
          by_cases h : ∃ b, s.keyAt? b = some line.segmentGroupKey
          · exact h
          · exact absurd (fun b hb => h ⟨b, hb⟩) hun
        obtain ⟨ca, hca⟩ := findCommonAncestorFromSgh_ok hv ho.addr hb
        obtain ⟨p1, p2⟩ := findCommonAncestorFromSgh_spec hd ho.addr hb hca
        obtain ⟨d, hdist, hlen, o1, o2, o3⟩ := leave_outcome hd hroot ho hb hk hkeys' p2 p1
        have hlayers : lr.2.layers = baseLayers s st (nextQualifierAt lines n) := by rw [hbl, e1]
        have hback : GoesTooFarBack s opened (previousKeyAt lines n) line.segmentGroupKey ↔
            line.segmentGroupKey ∈ opened ∧ line.segmentGroupKey ≠ none ∧ (sharedStart opened (s.pathKeys b)).length = 1 := by
          constructor
          · rintro ⟨g1, _, g2, b', hb', g3⟩
            obtain rfl := hd.keyAt_inj hb hb'
            exact ⟨g2, g1, by rw [g3]; rfl⟩
          · rintro ⟨g1, g2, g3⟩
            refine ⟨g2, hk, g1, b, hb, ?_⟩
            obtain ⟨y, hy⟩ := List.length_eq_one_iff.1 g3
            rw [hy]
            have hp := lcp_prefix_left opened (s.pathKeys b)
            rw [← sharedStart_eq, hy] at hp
            obtain ⟨t, ht⟩ := hp
            have := ho.head
            rw [← ht] at this
            simp only [List.singleton_append, List.head?_cons, Option.some.injEq] at this
            rw [this]
        by_cases hgo : GoesTooFarBack s opened (previousKeyAt lines n) line.segmentGroupKey
        · obtain ⟨g1, g2, g3⟩ := hback.1 hgo
          have hl : locStep s st ((line, .leaveToParentAndDive), nextSegmentAt lines n, nextQualifierAt lines n) =
              .error .valueError := by
            simp only [locStep, hinit, bind]
            rw [if_neg (fun h => hn0 h.1)]
            simp only [Except.bind, pyLast, hlr, hll, hlk, hca, hdist, ← hlayers, o3 g1 g2 g3]
          rw [hl]
          constructor
          · intro h; cases h; exact .tooFarBack hgo
          · intro h
            cases h with
            | unknown _ h => exact absurd h hun
            | noSegment _ _ h => exact absurd hgo h
            | firstQualifier | unknownFirst | tooFarBack | code => rfl
        · have hpops : ∃ r, leavePops line.segmentGroupKey d.layersUp lr.2.layers = .ok r := by
            by_cases g1 : line.segmentGroupKey ∈ opened
            · refine ⟨_, o2 g1 ?_⟩
              by_cases g2 : line.segmentGroupKey = none
              · exact .inl g2
              · refine .inr ?_
                have : (sharedStart opened (s.pathKeys b)).length ≠ 1 := fun g3 => hgo (hback.2 ⟨g1, g2, g3⟩)
                omega
            · exact ⟨_, o1 g1⟩
          obtain ⟨r, hr⟩ := hpops
          refine fin b (fun layers => (pyLast st.result).bind fun lr => (pyLast lr.2.layers).bind fun ll =>
            (findCommonAncestorFromSgh ll.segmentGroupKey line.segmentGroupKey s).bind fun ca =>
            (calculateDistance lr.2 ca).bind fun d => (leavePops line.segmentGroupKey d.layersUp layers).bind fun layers =>
            openLayer st line (nextSegmentAt lines n) (nextQualifierAt lines n) layers) false hb hgo (by simp [hc])
            fun base hb _ => ⟨r, ?_⟩
          subst hb
          simp only [Except.bind, pyLast, hlr, hll, hlk, hca, hdist, ← hlayers, hr]
          rfl

/-! ## the open groups after a step -/

theorem stepLayers_opened {s : Sgh} (hd : s.KeysDistinct) (hroot : s.segmentGroup = none) (hv : s.LayersValid) {lines : List AhbLine}
    {n : Nat} {line : AhbLine} (hline : lines[n]? = some line) {opened : List (Option PyStr)} {a : List Nat}
    (ho : OpenOk s (previousKeyAt lines n) opened a) {base layers : List AhbLocationLayer} {seg qual : Option PyStr}
    (hbase : base.map (·.segmentGroupKey) = opened)
    (hstep : StepLayers s base line (changeAt s lines n line) seg qual layers) :
    ∃ b, OpenOk s line.segmentGroupKey (layers.map (·.segmentGroupKey)) b ∧
      NextOpen s opened (previousKeyAt lines n) line.segmentGroupKey (layers.map (·.segmentGroupKey)) := by
  obtain ⟨c1, c2⟩ := changeAt_sound s lines n line hline
  have sa := Sgh.isSome_of_keyAt ho.addr
  by_cases hk : line.segmentGroupKey = previousKeyAt lines n
  · have hl : layers.map (·.segmentGroupKey) = opened := by
      rcases hstep with ⟨_, rfl⟩ | ⟨hne, outer, o, _, rfl, _, _, hmove, _⟩
      · exact hbase
      · rcases c1 hk with hc | hc
        · exact absurd hc hne
        · rw [hmove hc, List.map_append, List.map_dropLast, hbase, List.map_singleton, hk]
          exact List.dropLast_append_getLast? _ ho.last
    rw [hl, hk]
    exact ⟨a, ho, .inl ⟨rfl, rfl⟩⟩
  · have hc := c2 hk
    rcases hstep with ⟨hc', rfl⟩ | ⟨hne, outer, o, _, rfl, _, hdive, _, hleave⟩
    · rw [hc'] at hc; split at hc <;> cases hc
    rw [List.map_append, List.map_singleton]
    by_cases hbelow : s.sgIsHierarchicallyBelow line.segmentGroupKey (previousKeyAt lines n) = true
    · rw [if_pos hbelow] at hc
      have hsb := ((Sgh.sgBelow_addr _ _ _).1 hbelow).2
      obtain ⟨a', t, ht, h1, h2⟩ := hsb
      obtain rfl := hd.keyAt_inj ho.addr h1
      have sb := Sgh.isSome_of_keyAt h2
      rw [hdive hc, hbase]
      refine ⟨a ++ t, ⟨h2, ?_, ?_, by simp⟩, .inr (.inl ⟨hk, ⟨a, t, ht, h1, h2⟩, rfl⟩)⟩
      · rw [Sgh.pathKeys_concat h2]
        refine List.Sublist.append (ho.sub.trans ?_) (List.Sublist.refl _)
        have h3 := Sgh.pathKeys_take sb a.length
        rw [List.take_append_of_le_length (Nat.le_refl _), List.take_length] at h3
        rw [← h3]
        have h4 : t.length ≠ 0 := by simpa using ht
        exact (List.take_prefix_take_left (by rw [List.length_append]; omega)).sublist
      · rw [List.head?_append, ho.head]; rfl
    · rw [if_neg hbelow] at hc
      obtain ⟨_, x, l, ca, d, hxl, hxp, hl, hca, hdist, hpops⟩ := hleave hc
      have hlk : l.segmentGroupKey = previousKeyAt lines n := by
        have h1 := ho.last
        rw [← hbase, List.getLast?_map, hl] at h1
        exact Option.some.inj h1
      rw [hlk] at hca
      obtain ⟨b, hb⟩ : ∃ b, s.keyAt? b = some line.segmentGroupKey := by
        by_cases h : ∃ b, s.keyAt? b = some line.segmentGroupKey
        · exact h
        · have := (C81_common_ancestor (sgh := s) (fun a' g hg => ⟨(optMatches_iff sgKeyRe_iff _).1 (hv a' g hg).1,
            (segmentCode3Re_iff _).1 (hv a' g hg).2⟩) (previousKeyAt lines n) line.segmentGroupKey).2
            (by obtain ⟨g, h1, h2⟩ := Sgh.keyAt?_some.1 ho.addr; exact ⟨a, g, h1, h2⟩)
            (fun b g hg hgk => h ⟨b, Sgh.keyAt?_some.2 ⟨g, hg, hgk⟩⟩)
          rw [hca] at this
          cases this
      have sb := Sgh.isSome_of_keyAt hb
      obtain ⟨p1, p2⟩ := findCommonAncestorFromSgh_spec hd ho.addr hb hca
      subst hxl
      obtain ⟨d', hd', hlen, o1, o2, o3⟩ := leave_outcome hd hroot ho hb hk hbase p2 p1
      rw [hdist] at hd'
      cases hd'
      have hnb : ¬ s.StrictlyBelow line.segmentGroupKey (previousKeyAt lines n) := fun h =>
        hbelow ((Sgh.sgBelow_addr _ _ _).2 ⟨hk, h⟩)
      have hpa : sharedStart opened (s.pathKeys b) <+: opened := by
        rw [sharedStart_eq]; exact lcp_prefix_left _ _
      have hpb : sharedStart opened (s.pathKeys b) <+: s.pathKeys b := by
        rw [sharedStart_eq]; exact lcp_prefix_right _ _
      have hmap : ∀ m, m ≤ (sharedStart opened (s.pathKeys b)).length →
          (x.layers.take m).map (·.segmentGroupKey) = (sharedStart opened (s.pathKeys b)).take m := by
        intro m hm
        rw [List.map_take, hbase]
        conv => rhs; rw [List.prefix_iff_eq_take.1 hpa]
        rw [List.take_take, Nat.min_eq_left hm]
      have hhead : (sharedStart opened (s.pathKeys b)).head? = some none := by
        obtain ⟨t, ht⟩ := hpa
        cases hs : sharedStart opened (s.pathKeys b) with
        | nil => rw [hs] at hlen; simp at hlen
        | cons y ys =>
          rw [hs] at ht
          have := ho.head
          rw [← ht] at this
          simpa using this
      have hpl := Sgh.pathKeys_length sb
      have hsubl : ∀ m, m ≤ b.length →
          ((sharedStart opened (s.pathKeys b)).take m ++ [line.segmentGroupKey]).Sublist (s.pathKeys b) := by
        intro m hm
        obtain ⟨t, ht⟩ := hpb
        have h1 : (sharedStart opened (s.pathKeys b)).take m <+: (s.pathKeys b).take b.length := by
          have h2 : (sharedStart opened (s.pathKeys b)).take m <+: s.pathKeys b :=
            (List.take_prefix _ _).trans ⟨t, ht⟩
          rw [List.prefix_take_iff]
          exact ⟨h2, by rw [List.length_take]; omega⟩
        have h3 := h1.sublist.append (List.Sublist.refl [line.segmentGroupKey])
        rwa [← Sgh.pathKeys_concat hb] at h3
      by_cases hm : line.segmentGroupKey ∈ opened
      · by_cases h1 : line.segmentGroupKey = none ∨ 1 < (sharedStart opened (s.pathKeys b)).length
        · have h2 := o2 hm h1
          rw [hpops] at h2
          cases h2
          rw [hmap _ (by omega), ← List.dropLast_eq_take]
          refine ⟨b, ⟨hb, ?_, ?_, by simp⟩, .inr (.inr ⟨hk, hnb, b, hb, .inr ⟨hm, rfl⟩⟩)⟩
          · rw [List.dropLast_eq_take]
            have := hpb.length_le
            exact hsubl _ (by omega)
          · cases hs : sharedStart opened (s.pathKeys b) with
            | nil => rw [hs] at hlen; simp at hlen
            | cons y ys =>
              rw [hs] at hhead h1
              cases ys with
              | nil =>
                rcases h1 with h1 | h1
                · simp [h1]
                · simp at h1
              | cons z zs => simpa using hhead
        · exfalso
          have h2 := o3 hm (fun h => h1 (.inl h)) (by
            have : ¬ 1 < (sharedStart opened (s.pathKeys b)).length := fun h => h1 (.inr h)
            omega)
          rw [hpops] at h2
          cases h2
      · have h2 := o1 hm
        rw [hpops] at h2
        cases h2
        rw [hmap _ (Nat.le_refl _), List.take_length]
        refine ⟨b, ⟨hb, ?_, ?_, by simp⟩, .inr (.inr ⟨hk, hnb, b, hb, .inl ⟨hm, rfl⟩⟩)⟩
        · have hle : (sharedStart opened (s.pathKeys b)).length ≤ b.length := by
            apply Nat.le_of_not_lt
            intro hlt
            have h3 := List.prefix_iff_eq_take.1 hpb
            rw [List.take_of_length_le (by omega)] at h3
            rw [h3, Sgh.pathKeys_concat hb] at hpa
            exact hm (hpa.subset (by simp))
          have := hsubl _ hle
          rwa [List.take_length] at this
        · rw [List.head?_append, hhead]; rfl

/-! ## the whole run -/

theorem NextOpen.unique {s : Sgh} (hd : s.KeysDistinct) {opened : List (Option PyStr)} {prev k : Option PyStr}
    {o1 o2 : List (Option PyStr)} (h1 : NextOpen s opened prev k o1) (h2 : NextOpen s opened prev k o2) : o1 = o2 := by
  rcases h1 with ⟨a1, rfl⟩ | ⟨a1, a2, rfl⟩ | ⟨a1, a2, b, hb, h1⟩ <;> rcases h2 with ⟨c1, rfl⟩ | ⟨c1, c2, rfl⟩ | ⟨c1, c2, b', hb', h2⟩
  · rfl
  · exact absurd a1 c1
  · exact absurd a1 c1
  · exact absurd c1 a1
  · rfl
  · exact absurd a2 c2
  · exact absurd c1 a1
  · exact absurd c2 a2
  · obtain rfl := hd.keyAt_inj hb hb'
    rcases h1 with ⟨m1, rfl⟩ | ⟨m1, rfl⟩ <;> rcases h2 with ⟨m2, rfl⟩ | ⟨m2, rfl⟩
    · rfl
    · exact absurd m2 m1
    · exact absurd m1 m2
    · rfl

/-- the state after `n` lines -/
structure StateAfter (s : Sgh) (lines : List AhbLine) (n : Nat) (opened : List (Option PyStr)) (st : LocState) : Prop where
  ok : st.Ok s
  len : st.result.length = n
  keys : st.layers.map (·.segmentGroupKey) = opened
  open' : ∃ a, OpenOk s (previousKeyAt lines n) opened a

def startState (s : Sgh) : LocState := { layers := [⟨s.segmentGroup, s.openingSegment, none⟩], result := [] }

theorem StateAfter.start {s : Sgh} (hroot : s.segmentGroup = none) (lines : List AhbLine) :
    StateAfter s lines 0 [none] (startState s) where
  ok := ⟨fun _ => rfl, by simp [startState]⟩
  len := rfl
  keys := by simp [startState, hroot]
  open' := ⟨[], by simp [Sgh.keyAt?, hroot, previousKeyAt], by simp [Sgh.pathKeys, hroot], rfl, by simp [previousKeyAt]⟩

theorem StateAfter.next {s : Sgh} (hd : s.KeysDistinct) (hroot : s.segmentGroup = none) (hv : s.LayersValid) {lines : List AhbLine}
    {n : Nat} {line : AhbLine} (hline : lines[n]? = some line) {opened : List (Option PyStr)} {st st' : LocState}
    (h : StateAfter s lines n opened st)
    (hs : locStep s st ((line, changeAt s lines n line), nextSegmentAt lines n, nextQualifierAt lines n) = .ok st') :
    ∃ opened', NextOpen s opened (previousKeyAt lines n) line.segmentGroupKey opened' ∧ StateAfter s lines (n + 1) opened' st' := by
  obtain ⟨a, ha⟩ := h.open'
  obtain ⟨j1, layers, j2, j3, j4, j5⟩ := locStep_ok h.ok (changeAt_ne s lines n _ hline).1 hs
  obtain ⟨b, hb, hn⟩ := stepLayers_opened hd hroot hv hline ha (by rw [baseLayers_keys h.ok, h.keys]) j5
  refine ⟨_, hn, j1, by rw [j4]; simp [h.len], by rw [j2], b, ?_⟩
  simpa [previousKeyAt, hline] using hb

theorem StateAfter.raises {s : Sgh} (hd : s.KeysDistinct) (hroot : s.segmentGroup = none) (hv : s.LayersValid) {lines : List AhbLine}
    {n : Nat} {line : AhbLine} (hline : lines[n]? = some line) {opened : List (Option PyStr)} {st : LocState}
    (h : StateAfter s lines n opened st) (e : Exc) :
    locStep s st ((line, changeAt s lines n line), nextSegmentAt lines n, nextQualifierAt lines n) = .error e ↔
      LineRaises s lines (changesLoop s ChangeState.init (items lines)) n line opened e := by
  obtain ⟨a, ha⟩ := h.open'
  exact locStep_outcome hd hroot hv hline ha h.ok (by rw [← List.length_eq_zero_iff, h.len]) h.keys e

theorem locItems_take_succ {s : Sgh} {lines : List AhbLine} {n : Nat} {line : AhbLine} (hline : lines[n]? = some line) :
    (locItems s lines).take (n + 1) = (locItems s lines).take n ++
      [((line, changeAt s lines n line), nextSegmentAt lines n, nextQualifierAt lines n)] := by
  rw [List.take_add_one, locItems_getElem?, hline]
  rfl

theorem Through.state {s : Sgh} (hd : s.KeysDistinct) (hroot : s.segmentGroup = none) (hv : s.LayersValid) {lines : List AhbLine}
    {n : Nat} {opened : List (Option PyStr)}
    (h : Through s lines (changesLoop s ChangeState.init (items lines)) n opened) :
    ∃ st, ((locItems s lines).take n).foldlM (locStep s) (startState s) = .ok st ∧ StateAfter s lines n opened st := by
  induction h with
  | start => exact ⟨_, rfl, StateAfter.start hroot lines⟩
  | next n opened opened' line before hl fine h ih =>
    obtain ⟨st, h1, h2⟩ := ih
    rw [locItems_take_succ hl, List.foldlM_append, h1]
    simp only [bind, Except.bind, List.foldlM_cons, List.foldlM_nil]
    cases hs : locStep s st ((line, changeAt s lines n line), nextSegmentAt lines n, nextQualifierAt lines n) with
    | error e => exact absurd ((h2.raises hd hroot hv hl e).1 hs) (fine e)
    | ok st' =>
      obtain ⟨o, h3, h4⟩ := h2.next hd hroot hv hl hs
      obtain rfl := NextOpen.unique hd h h3
      exact ⟨st', rfl, h4⟩

theorem state_through {s : Sgh} (hd : s.KeysDistinct) (hroot : s.segmentGroup = none) (hv : s.LayersValid) {lines : List AhbLine}
    {n : Nat} (hn : n ≤ lines.length) {st : LocState}
    (h : ((locItems s lines).take n).foldlM (locStep s) (startState s) = .ok st) :
    ∃ opened, Through s lines (changesLoop s ChangeState.init (items lines)) n opened ∧ StateAfter s lines n opened st := by
  induction n generalizing st with
  | zero => cases h; exact ⟨_, .start, StateAfter.start hroot lines⟩
  | succ n ih =>
    have hl : lines[n]? = some lines[n] := List.getElem?_eq_getElem (by omega)
    rw [locItems_take_succ hl, List.foldlM_append] at h
    simp only [bind, Except.bind, List.foldlM_cons, List.foldlM_nil] at h
    split at h
    · cases h
    · next st0 h0 =>
      obtain ⟨opened, h1, h2⟩ := ih (by omega) h0
      split at h
      · cases h
      · next st1 hs =>
        cases h
        obtain ⟨o, h3, h4⟩ := h2.next hd hroot hv hl hs
        refine ⟨o, .next n opened o _ h1 hl (fun e he => ?_) h3, h4⟩
        rw [(h2.raises hd hroot hv hl e).2 he] at hs
        cases hs

theorem determineLocations_fold {s : Sgh} (hv : s.LayersValid) (lines : List AhbLine) :
    determineLocations s lines = ((locItems s lines).foldlM (locStep s) (startState s)).map (·.result) := by
  obtain ⟨v1, v2⟩ := hv [] s rfl
  rw [determineLocations_eq, layerNew_of_valid v1 v2 rfl]
  simp only [bind, Except.bind, startState]
  cases (locItems s lines).foldlM (locStep s) _ <;> rfl

theorem determineLocations_error_iff {s : Sgh} (hd : s.KeysDistinct) (hroot : s.segmentGroup = none) (hv : s.LayersValid)
    (lines : List AhbLine) (e : Exc) :
    determineLocations s lines = .error e ↔ ∃ n opened line,
      Through s lines (changesLoop s ChangeState.init (items lines)) n opened ∧ lines[n]? = some line ∧
      LineRaises s lines (changesLoop s ChangeState.init (items lines)) n line opened e := by
  rw [determineLocations_fold hv]
  have hmap : ((locItems s lines).foldlM (locStep s) (startState s)).map (·.result) = .error e ↔
      (locItems s lines).foldlM (locStep s) (startState s) = .error e := by
    cases (locItems s lines).foldlM (locStep s) (startState s) <;> simp [Except.map]
  rw [hmap]
  constructor
  · intro h
    obtain ⟨before, it, after, st, h1, h2, h3⟩ := (foldlM_error_iff _ _ _ _).1 h
    have hit : (locItems s lines)[before.length]? = some it := by rw [h1]; simp
    have hbefore : before = (locItems s lines).take before.length := by rw [h1]; simp
    rw [locItems_getElem?] at hit
    cases hl : lines[before.length]? with
    | none => rw [hl] at hit; cases hit
    | some line =>
      rw [hl] at hit
      cases hit
      have hlt := (List.getElem?_eq_some_iff.1 hl).1
      rw [hbefore] at h2
      obtain ⟨opened, t1, t2⟩ := state_through hd hroot hv (by omega) h2
      exact ⟨_, opened, line, t1, hl, (t2.raises hd hroot hv hl e).1 h3⟩
  · rintro ⟨n, opened, line, t, hl, hr⟩
    obtain ⟨st, h1, h2⟩ := t.state hd hroot hv
    have h3 := (h2.raises hd hroot hv hl e).2 hr
    refine (foldlM_error_iff _ _ _ _).2 ⟨(locItems s lines).take n, _, (locItems s lines).drop (n + 1), st, ?_, h1, h3⟩
    rw [List.append_cons, ← locItems_take_succ hl, List.take_append_drop]

theorem determineLocations_ok_iff {s : Sgh} (hd : s.KeysDistinct) (hroot : s.segmentGroup = none) (hv : s.LayersValid)
    (lines : List AhbLine) :
    (∃ res, determineLocations s lines = .ok res) ↔
      ∃ opened, Through s lines (changesLoop s ChangeState.init (items lines)) lines.length opened := by
  rw [determineLocations_fold hv]
  have htake : (locItems s lines).take lines.length = locItems s lines := by
    rw [← locItems_length s lines, List.take_length]
  constructor
  · rintro ⟨res, h⟩
    cases hf : (locItems s lines).foldlM (locStep s) (startState s) with
    | error e => rw [hf] at h; cases h
    | ok st =>
      rw [← htake] at hf
      obtain ⟨opened, t, _⟩ := state_through hd hroot hv (Nat.le_refl _) hf
      exact ⟨opened, t⟩
  · rintro ⟨opened, t⟩
    obtain ⟨st, h, _⟩ := t.state hd hroot hv
    rw [htake] at h
    exact ⟨_, by rw [h]; rfl⟩

theorem determineLocations_layers {s : Sgh} (hd : s.KeysDistinct) (hroot : s.segmentGroup = none) (hv : s.LayersValid)
    {lines : List AhbLine} {res : List (AhbLine × AhbLocation)} (h : determineLocations s lines = .ok res) (n : Nat)
    (hn : n ≤ lines.length) :
    ∃ opened a, Through s lines (changesLoop s ChangeState.init (items lines)) n opened ∧
      OpenOk s (previousKeyAt lines n) opened a ∧
      openBefore s lines res n = opened.map (layerBelow s lines (changesLoop s ChangeState.init (items lines)) n) := by
  obtain ⟨hlen, htr⟩ := determineLocations_trace h
  induction n with
  | zero =>
    obtain ⟨a, ha⟩ := (StateAfter.start hroot lines).open'
    exact ⟨[none], a, .start, ha, by simp [openBefore, layerBelow, hroot]⟩
  | succ n ih =>
    obtain ⟨opened, a, ht, ha, hb⟩ := ih (by omega)
    have hl : lines[n]? = some lines[n] := List.getElem?_eq_getElem (by omega)
    obtain ⟨layers, h1, h2, h3⟩ := htr n _ hl
    have hkeys : (openBefore s lines res n).map (·.segmentGroupKey) = opened := by
      rw [hb, layerBelow_map_key]
    obtain ⟨b, hob, hnext⟩ := stepLayers_opened hd hroot hv hl ha hkeys h3
    refine ⟨_, b, .next n opened _ _ ht hl (fun e he => ?_) hnext, by simpa [previousKeyAt, hl] using hob, ?_⟩
    · have := (determineLocations_error_iff hd hroot hv lines e).2 ⟨n, opened, _, ht, hl, he⟩
      rw [h] at this
      cases this
    · have hopen : openBefore s lines res (n + 1) = layers := by simp [openBefore, h1]
      rw [hopen]
      have hat : ∀ k, opensAt (changesLoop s ChangeState.init (items lines)) k n =
          decide (changeAt s lines n lines[n] ≠ .stay ∧ lines[n].segmentGroupKey = k) := by
        intro k; unfold opensAt; rw [changes_getElem?, hl]; rfl
      rcases h3 with ⟨hs, rfl⟩ | ⟨hne, outer, o, hseg, rfl, hpre, _⟩
      · rw [hkeys, hb]
        apply List.map_congr_left
        intro k _
        rw [layerBelow_succ_of_not (by rw [hat]; simp [hs])]
      · have hnd := (hd.pathKeys_nodup (Sgh.isSome_of_keyAt hob.addr)).sublist hob.sub
        rw [List.map_append, List.map_singleton] at hnd ⊢
        rw [List.map_append, List.map_singleton]
        congr 1
        · rw [List.prefix_iff_eq_take, hb] at hpre
          have ho : outer = (outer.map (·.segmentGroupKey)).map
              (layerBelow s lines (changesLoop s ChangeState.init (items lines)) n) := by
            rw [← List.map_take] at hpre
            generalize opened.take outer.length = ks at hpre
            rw [hpre, layerBelow_map_key]
          conv => lhs; rw [ho]
          apply List.map_congr_left
          intro k hk
          rw [layerBelow_succ_of_not]
          rw [hat, decide_eq_false_iff_not]
          rintro ⟨_, rfl⟩
          rw [List.nodup_append] at hnd
          exact hnd.2.2 _ hk _ (by simp) rfl
        · rw [layerBelow_succ_of (by rw [hat]; simp [hne]), hseg]; rfl

end Verif
