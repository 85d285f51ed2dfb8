import Mathlib.Data.List.Forall2
import Verif.Spec.Content
import Verif.Spec.Relabel
import Verif.Model.Matching
import Verif.Model.Deep
/-! `to_deep_ahb` does not read GUIDs, condition texts and segment ids -/

namespace Verif

/-- the line without what is not read, renumbered -/
def AhbLine.bare (ρ : Relabelling) (l : AhbLine) : AhbLine :=
  { l.relabel ρ with guid := none, conditions := none, segmentId := none }

/-- only the line numbers change -/
def Relabelling.numbers (k : Option Int → Option Int) : Relabelling := ⟨k, id, id, id⟩

theorem numbers_fair (k : Option Int → Option Int) : (Relabelling.numbers k).Fair := ⟨fun _ => Iff.rfl, fun _ => rfl, fun _ => rfl⟩

theorem bare_id_eq_iff (a b : AhbLine) : a.bare (.numbers id) = b.bare (.numbers id) ↔ a.SameContent b := by
  cases a
  cases b
  simp [AhbLine.bare, AhbLine.relabel, Relabelling.numbers, AhbLine.SameContent]

theorem bare_none_eq_iff (a b : AhbLine) : a.bare (.numbers fun _ => none) = b.bare (.numbers fun _ => none) ↔ a.SameButNumber b := by
  cases a
  cases b
  simp [AhbLine.bare, AhbLine.relabel, Relabelling.numbers, AhbLine.SameButNumber, AhbLine.SameContent]

theorem map_eq_iff_forall₂ {α β : Type} {f : α → β} {R : α → α → Prop} (h : ∀ a b, f a = f b ↔ R a b) (l l' : List α) :
    l.map f = l'.map f ↔ List.Forall₂ R l l' := by
  induction l generalizing l' with
  | nil => cases l' <;> simp
  | cons a l ih =>
    cases l' with
    | nil => simp
    | cons b l' => simp [h, ih]

theorem foldlM_map_state {α β σ ε : Type} (m : σ → σ) (g : α → β) (f : σ → α → Except ε σ) (f' : σ → β → Except ε σ)
    (h : ∀ s a, f' (m s) (g a) = (f s a).map m) (l : List α) : ∀ s, (l.map g).foldlM f' (m s) = (l.foldlM f s).map m := by
  induction l with
  | nil => intro s; rfl
  | cons a l ih =>
    intro s
    rw [List.map_cons, List.foldlM_cons, List.foldlM_cons, h]
    cases f s a with
    | error e => rfl
    | ok t => exact ih t

/-! ## navigation -/

/-- the line is changed outside the four columns in which its place is written -/
structure KeepsPlace (f : AhbLine → AhbLine) : Prop where
  key : ∀ l, (f l).segmentGroupKey = l.segmentGroupKey
  code : ∀ l, (f l).segmentCode = l.segmentCode
  element : ∀ l, (f l).dataElement = l.dataElement
  entry : ∀ l, (f l).valuePoolEntry = l.valuePoolEntry

variable (f : AhbLine → AhbLine)

def bareFst {β : Type} (x : AhbLine × β) : AhbLine × β := (f x.1, x.2)

theorem find_bare (pred : AhbLine → Bool) (hp : ∀ l, pred (f l) = pred l) (ls : List AhbLine) :
    (ls.map f).find? pred = (ls.find? pred).map f := by
  induction ls with
  | nil => rfl
  | cons l ls ih =>
    rw [List.map_cons, List.find?_cons, List.find?_cons, hp]
    cases pred l <;> simp [ih]

theorem enhanceLoop_bare (pred : AhbLine → Bool) (sel : AhbLine → Option PyStr) (hp : ∀ l, pred (f l) = pred l)
    (hs : ∀ l, sel (f l) = sel l) (ls : List AhbLine) :
    enhanceLoop pred sel (ls.map f) = (enhanceLoop pred sel ls).map (bareFst f) := by
  induction ls with
  | nil => rfl
  | cons l ls ih =>
    rw [List.map_cons, enhanceLoop, enhanceLoop, hp, ← List.map_cons, find_bare f pred hp, ih]
    split
    · rw [hs]; rfl
    · cases (l :: ls).find? pred with
      | none => rfl
      | some m => simp only [Option.map_some]; rw [hs]; rfl

theorem pyGet_map {α β : Type} (f : α → β) (l : List α) (i : Int) : pyGet (l.map f) i = (pyGet l i).map f := by
  unfold pyGet
  simp only [List.length_map, List.getElem?_map]
  generalize (if i < 0 then i + (l.length : Int) else i) = j
  by_cases hj : j < 0
  · simp only [hj, if_true]; rfl
  · simp only [hj, if_false]
    cases l[j.toNat]? <;> rfl

theorem enhanceFill_bare (lines : List AhbLine) : ∀ n i,
    enhanceFill (lines.map f) n i = (enhanceFill lines n i).map (List.map (bareFst f)) := by
  intro n
  induction n with
  | zero => intro i; rfl
  | succ n ih =>
    intro i
    rw [enhanceFill, enhanceFill, pyGet_map, ih]
    cases pyGet lines i with
    | error e => rfl
    | ok l =>
      cases enhanceFill lines n (i + 1) with
      | error e => rfl
      | ok r => rfl

theorem enhance_bare (pred : AhbLine → Bool) (sel : AhbLine → Option PyStr) (hp : ∀ l, pred (f l) = pred l)
    (hs : ∀ l, sel (f l) = sel l) (ls : List AhbLine) :
    enhance pred sel (ls.map f) = (enhance pred sel ls).map (List.map (bareFst f)) := by
  unfold enhance
  simp only
  rw [enhanceLoop_bare f pred sel hp hs, List.length_map, List.length_map, enhanceFill_bare]
  cases enhanceFill ls (ls.length - (enhanceLoop pred sel ls).length) (((enhanceLoop pred sel ls).length : Int) - 1) with
  | error e => rfl
  | ok r => simp [Except.map, bind, Except.bind, pure, Except.pure]

theorem snd_bareFst {β : Type} (l : List (AhbLine × β)) : (l.map (bareFst f)).map Prod.snd = l.map Prod.snd := by
  rw [List.map_map]; rfl

theorem zip3Strict_bare {β γ : Type} (as : List AhbLine) : ∀ (bs : List β) (cs : List γ),
    zip3Strict (as.map f) bs cs = (zip3Strict as bs cs).map (List.map (bareFst f)) := by
  induction as with
  | nil => intro bs cs; cases bs <;> cases cs <;> rfl
  | cons a as ih =>
    intro bs cs
    cases bs with
    | nil => rfl
    | cons b bs =>
      cases cs with
      | nil => rfl
      | cons c cs =>
        rw [List.map_cons, zip3Strict, zip3Strict, ih]
        cases zip3Strict as bs cs <;> rfl

def ChangeState.bare (st : ChangeState) : ChangeState := { st with previousLine := st.previousLine.map f }

variable {f} in
theorem changeStep_bare (hf : KeepsPlace f) (sgh : Sgh) (st : ChangeState) (line : AhbLine) (seg qual : Option PyStr) :
    changeStep sgh (st.bare f) (f line) seg qual = ((changeStep sgh st line seg qual).1.bare f, (changeStep sgh st line seg qual).2) := by
  obtain ⟨w, p, q, s⟩ := st
  unfold changeStep ChangeState.bare determineHierarchyChange
  have h : previousSgKey (p.map f) = previousSgKey p := by
    cases p with
    | none => rfl
    | some l => exact hf.key l
  simp only [h, hf.code, hf.key, Option.map_some]

variable {f} in
theorem changesLoop_bare (hf : KeepsPlace f) (sgh : Sgh) (l : List (AhbLine × Option PyStr × Option PyStr)) : ∀ st,
    changesLoop sgh (st.bare f) (l.map (bareFst f)) = (changesLoop sgh st l).map (bareFst f) := by
  induction l with
  | nil => intro st; rfl
  | cons x l ih =>
    intro st
    obtain ⟨line, seg, qual⟩ := x
    rw [List.map_cons, bareFst, changesLoop, changesLoop, changeStep_bare hf]
    simp only [List.map_cons]
    rw [ih]
    rfl

variable {f} in
theorem determineHierarchyChanges_bare (hf : KeepsPlace f) (lines : List AhbLine) (sgh : Sgh) :
    determineHierarchyChanges (lines.map f) sgh = (determineHierarchyChanges lines sgh).map (List.map (bareFst f)) := by
  unfold determineHierarchyChanges enhanceWithNextSegment enhanceWithNextValuePoolEntry
  rw [enhance_bare f _ _ (fun l => by rw [hf.code]) hf.code, enhance_bare f _ _ (fun l => by rw [hf.entry]) hf.entry]
  cases enhance (fun l => l.segmentCode.isSome) (fun l => l.segmentCode) lines with
  | error e => rfl
  | ok segs =>
    cases enhance (fun l => l.valuePoolEntry.isSome) (fun l => l.valuePoolEntry) lines with
    | error e => rfl
    | ok quals =>
      simp only [Except.map, bind, Except.bind]
      rw [snd_bareFst, snd_bareFst, zip3Strict_bare]
      cases zip3Strict lines (segs.map Prod.snd) (quals.map Prod.snd) with
      | error e => rfl
      | ok z =>
        simp only [Except.map, pure, Except.pure]
        congr 1
        exact changesLoop_bare hf sgh z ChangeState.init

def LocState.bare (st : LocState) : LocState := { st with result := st.result.map (bareFst f) }

def bareItem (x : (AhbLine × Change) × Option PyStr × Option PyStr) : (AhbLine × Change) × Option PyStr × Option PyStr := ((bareFst f) x.1, x.2)

variable {f} in
theorem appendLocation_bare (hf : KeepsPlace f) (st : LocState) (line : AhbLine) (seg : Option PyStr) (layers : List AhbLocationLayer) :
    appendLocation (st.bare f) (f line) seg layers = (appendLocation st line seg layers).map (LocState.bare f) := by
  unfold appendLocation
  have h1 : (f line).dataElement = line.dataElement := hf.element _
  have h2 : (f line).valuePoolEntry = line.valuePoolEntry := hf.entry _
  rw [h1, h2]
  cases AhbLocation.new layers seg line.dataElement line.valuePoolEntry with
  | error e => rfl
  | ok loc => simp [bind, Except.bind, pure, Except.pure, Except.map, LocState.bare, bareFst]

theorem initialLayers_bare (sgh : Sgh) (st : LocState) (q : Option PyStr) : initialLayers sgh (st.bare f) q = initialLayers sgh st q := by
  unfold initialLayers
  have : (st.bare f).result.length = st.result.length := by simp [LocState.bare]
  rw [this]
  rfl

theorem pyLast_map {α β : Type} (f : α → β) (l : List α) : pyLast (l.map f) = (pyLast l).map f := by
  unfold pyLast
  rw [List.getLast?_map]
  cases l.getLast? <;> rfl

variable {f} in
theorem locStep_bare (hf : KeepsPlace f) (sgh : Sgh) (st : LocState) (item : (AhbLine × Change) × Option PyStr × Option PyStr) :
    locStep sgh (st.bare f) (bareItem f item) = (locStep sgh st item).map (LocState.bare f) := by
  obtain ⟨⟨line, change⟩, seg, qual⟩ := item
  unfold locStep bareItem bareFst
  simp only
  have hk : (f line).segmentGroupKey = line.segmentGroupKey := hf.key _
  rw [initialLayers_bare, hk]
  cases initialLayers sgh st qual with
  | error e => rfl
  | ok layers =>
    simp only [bind, Except.bind]
    cases change with
    | stay => exact appendLocation_bare hf st line seg layers
    | moveToNeighbourSameKey =>
      simp only
      cases pyPop layers with
      | error e => rfl
      | ok layers =>
        simp only
        cases AhbLocationLayer.new line.segmentGroupKey seg qual with
        | error e => rfl
        | ok new => exact appendLocation_bare hf st line seg _
    | moveToNeighbourDifferentKey => rfl
    | diveIntoSubGroup =>
      simp only
      cases AhbLocationLayer.new line.segmentGroupKey seg qual with
      | error e => rfl
      | ok new => exact appendLocation_bare hf st line seg _
    | leaveToParent => rfl
    | leaveToParentAndDive =>
      simp only
      have hl : pyLast (st.bare f).result = (pyLast st.result).map (bareFst f) := pyLast_map _ _
      rw [hl]
      cases pyLast st.result with
      | error e => rfl
      | ok lr =>
        simp only [Except.map, bareFst]
        cases pyLast lr.2.layers with
        | error e => rfl
        | ok ll =>
          simp only
          cases findCommonAncestorFromSgh ll.segmentGroupKey line.segmentGroupKey sgh with
          | error e => rfl
          | ok ca =>
            simp only
            cases calculateDistance lr.2 ca with
            | error e => rfl
            | ok d =>
              simp only
              cases leavePops line.segmentGroupKey d.layersUp layers with
              | error e => rfl
              | ok layers =>
                simp only
                cases AhbLocationLayer.new line.segmentGroupKey seg qual with
                | error e => rfl
                | ok new => exact appendLocation_bare hf st line seg _

theorem zip3_bare {β : Type} (as : List (AhbLine × β)) : ∀ (bs cs : List (Option PyStr)),
    zip3 (as.map (bareFst f)) bs cs = (zip3 as bs cs).map fun x => ((bareFst f) x.1, x.2) := by
  induction as with
  | nil => intro bs cs; rfl
  | cons a as ih =>
    intro bs cs
    cases bs with
    | nil => rfl
    | cons b bs =>
      cases cs with
      | nil => rfl
      | cons c cs => rw [List.map_cons, zip3, zip3, ih]; rfl

variable {f} in
theorem determineLocations_bare (hf : KeepsPlace f) (sgh : Sgh) (lines : List AhbLine) :
    determineLocations sgh (lines.map f) = (determineLocations sgh lines).map (List.map (bareFst f)) := by
  unfold determineLocations
  rw [determineHierarchyChanges_bare hf]
  unfold enhanceWithNextSegment enhanceWithNextValuePoolEntry
  rw [enhance_bare f _ _ (fun l => by rw [hf.code]) hf.code, enhance_bare f _ _ (fun l => by rw [hf.entry]) hf.entry]
  cases AhbLocationLayer.new sgh.segmentGroup (some sgh.openingSegment) none with
  | error e => rfl
  | ok sl =>
    simp only [bind, Except.bind]
    cases determineHierarchyChanges lines sgh with
    | error e => rfl
    | ok changes =>
      cases enhance (fun l => l.segmentCode.isSome) (fun l => l.segmentCode) lines with
      | error e => rfl
      | ok segs =>
        cases enhance (fun l => l.valuePoolEntry.isSome) (fun l => l.valuePoolEntry) lines with
        | error e => rfl
        | ok quals =>
          simp only [Except.map]
          rw [snd_bareFst, snd_bareFst, zip3_bare]
          have := foldlM_map_state (LocState.bare f) (bareItem f) (locStep sgh) (locStep sgh) (locStep_bare hf sgh)
            (zip3 changes (segs.map Prod.snd) (quals.map Prod.snd)) { layers := [sl], result := [] }
          have h0 : LocState.bare f { layers := [sl], result := [] } = { layers := [sl], result := [] } := rfl
          rw [h0] at this
          unfold bareItem at this
          rw [this]
          cases (zip3 changes (segs.map Prod.snd) (quals.map Prod.snd)).foldlM (locStep sgh) { layers := [sl], result := [] } <;> rfl

variable (ρ : Relabelling)

theorem bare_keepsPlace : KeepsPlace (AhbLine.bare ρ) := ⟨fun _ => rfl, fun _ => rfl, fun _ => rfl, fun _ => rfl⟩

/-! ## relabeling trees -/

section
open SegmentGroup

theorem relabelList_eq (l : List SegmentGroup) : relabelList ρ l = l.map (SegmentGroup.relabel ρ) := by
  induction l with
  | nil => rfl
  | cons g l ih => rw [relabelList, ih, List.map_cons]

theorem relabelOpt_eq (o : Option (List SegmentGroup)) : relabelOpt ρ o = o.map (List.map (SegmentGroup.relabel ρ)) := by
  cases o with
  | none => rfl
  | some l => rw [relabelOpt, relabelList_eq]; rfl

theorem relabel_segments (g : SegmentGroup) : (g.relabel ρ).segments = g.segments.map (List.map (Segment.relabel ρ)) := by
  cases g
  rw [SegmentGroup.relabel]
  rfl

theorem relabel_segmentGroups (g : SegmentGroup) : (g.relabel ρ).segmentGroups = g.segmentGroups.map (List.map (SegmentGroup.relabel ρ)) := by
  cases g
  rw [SegmentGroup.relabel, ← relabelOpt_eq]
  rfl

theorem relabel_discriminator (g : SegmentGroup) : (g.relabel ρ).discriminator = g.discriminator := by
  cases g
  rw [SegmentGroup.relabel]
  rfl

theorem relabel_setSegments (g : SegmentGroup) (s : Option (List Segment)) :
    (g.relabel ρ).setSegments (s.map (List.map (Segment.relabel ρ))) = (g.setSegments s).relabel ρ := by
  cases g
  simp only [SegmentGroup.relabel, SegmentGroup.setSegments, SegmentGroup.discriminator, SegmentGroup.ahbExpression,
    SegmentGroup.ahbLineIndex, SegmentGroup.segmentGroups]

theorem relabel_setSegmentGroups (g : SegmentGroup) (s : Option (List SegmentGroup)) :
    (g.relabel ρ).setSegmentGroups (s.map (List.map (SegmentGroup.relabel ρ))) = (g.setSegmentGroups s).relabel ρ := by
  cases g
  simp only [SegmentGroup.relabel, SegmentGroup.setSegmentGroups, SegmentGroup.discriminator, SegmentGroup.ahbExpression,
    SegmentGroup.ahbLineIndex, SegmentGroup.segments, relabelOpt_eq]

theorem map_modify {α : Type} (f : α → α) (m m' : α → α) (h : ∀ a, m' (f a) = f (m a)) (l : List α) (i : Nat) :
    (l.map f).modify i m' = (l.modify i m).map f := by
  apply List.ext_getElem?
  intro n
  rw [List.getElem?_modify, List.getElem?_map, List.getElem?_map, List.getElem?_modify]
  cases l[n]? with
  | none => rfl
  | some a =>
    simp only [Option.map_some, Option.map_eq_map]
    split
    · rw [h]
    · rfl

theorem groupsAt_relabel (p : GroupPath) : ∀ l : List SegmentGroup,
    groupsAt (l.map (SegmentGroup.relabel ρ)) p = (groupsAt l p).map (List.map (SegmentGroup.relabel ρ)) := by
  induction p with
  | nil => intro l; rfl
  | cons i p ih =>
    intro l
    rw [groupsAt, groupsAt, List.getElem?_map]
    cases l[i]? with
    | none => rfl
    | some g =>
      simp only [Option.map_some, Option.bind_some]
      rw [relabel_segmentGroups]
      cases g.segmentGroups with
      | none => rfl
      | some gs => exact ih gs

theorem modifyGroups_relabel {f f' : List SegmentGroup → List SegmentGroup}
    (h : ∀ l, f' (l.map (SegmentGroup.relabel ρ)) = (f l).map (SegmentGroup.relabel ρ)) (p : GroupPath) :
    ∀ l : List SegmentGroup, modifyGroups f' p (l.map (SegmentGroup.relabel ρ)) = (modifyGroups f p l).map (SegmentGroup.relabel ρ) := by
  induction p with
  | nil => intro l; exact h l
  | cons i p ih =>
    intro l
    rw [modifyGroups, modifyGroups]
    refine map_modify _ _ _ (fun g => ?_) l i
    rw [relabel_segmentGroups, ← relabel_setSegmentGroups, Option.map_map, Option.map_map]
    congr 2
    funext gs
    exact ih gs

theorem modifySegments_relabel {f f' : List Segment → List Segment}
    (h : ∀ l, f' (l.map (Segment.relabel ρ)) = (f l).map (Segment.relabel ρ)) (p : GroupPath) (l : List SegmentGroup) :
    modifySegments f' p (l.map (SegmentGroup.relabel ρ)) = (modifySegments f p l).map (SegmentGroup.relabel ρ) := by
  unfold modifySegments
  cases p.getLast? with
  | none => rfl
  | some i =>
    simp only
    refine modifyGroups_relabel ρ (fun gs => map_modify _ _ _ (fun g => ?_) gs i) _ l
    rw [relabel_segments, ← relabel_setSegments, Option.map_map, Option.map_map]
    congr 2
    funext ss
    exact h ss

end

/-! ## to_deep_ahb -/

def DeepState.relabel (st : DeepState) : DeepState := { st with lines := st.lines.map (SegmentGroup.relabel ρ) }

theorem popGroupLists_relabel (n : Nat) : ∀ st : DeepState,
    popGroupLists n (st.relabel ρ) = (popGroupLists n st).map (DeepState.relabel ρ) := by
  induction n with
  | zero => intro st; rfl
  | succ n ih =>
    intro st
    rw [popGroupLists, popGroupLists]
    have h : (st.relabel ρ).parentGroupLists = st.parentGroupLists := rfl
    rw [h]
    cases st.parentGroupLists.getLast? with
    | none => rfl
    | some p => exact ih { st with parentGroupLists := st.parentGroupLists.dropLast, sgHere := some p }

theorem pushGroupLists_relabel (n : Nat) : ∀ st : DeepState,
    pushGroupLists n (st.relabel ρ) = (pushGroupLists n st).map (DeepState.relabel ρ) := by
  induction n with
  | zero => intro st; rfl
  | succ n ih =>
    intro st
    rw [pushGroupLists, pushGroupLists]
    have h : (st.relabel ρ).sgHere = st.sgHere := rfl
    have h2 : (st.relabel ρ).lines = st.lines.map (SegmentGroup.relabel ρ) := rfl
    rw [h, h2]
    cases st.sgHere with
    | none => rfl
    | some p =>
      simp only
      rw [groupsAt_relabel]
      cases groupsAt st.lines p with
      | none => rfl
      | some l =>
        simp only [Option.map_some, List.isEmpty_map, List.length_map]
        split
        · rfl
        · exact ih { st with parentGroupLists := st.parentGroupLists ++ [p], sgHere := some (p ++ [l.length - 1]) }

theorem appendGroup_relabel (g : SegmentGroup) (st : DeepState) :
    appendGroup (g.relabel ρ) (st.relabel ρ) = (appendGroup g st).map (DeepState.relabel ρ) := by
  unfold appendGroup
  have h : (st.relabel ρ).sgHere = st.sgHere := rfl
  have h2 : (st.relabel ρ).lines = st.lines.map (SegmentGroup.relabel ρ) := rfl
  rw [h, h2]
  cases st.sgHere with
  | none => rfl
  | some p =>
    simp only
    rw [groupsAt_relabel, modifyGroups_relabel ρ (f := (· ++ [g])) (f' := (· ++ [g.relabel ρ])) (fun l => by simp)]
    have e : (((groupsAt st.lines p).map (List.map (SegmentGroup.relabel ρ))).getD []).length = ((groupsAt st.lines p).getD []).length := by
      cases groupsAt st.lines p <;> simp
    rw [e]
    rfl

theorem insertGroup_relabel (g : SegmentGroup) (position : AhbLocation) (st : DeepState) :
    insertGroup (g.relabel ρ) position (st.relabel ρ) = (insertGroup g position st).map (DeepState.relabel ρ) := by
  unfold insertGroup
  rw [relabel_discriminator]
  have h : (st.relabel ρ).previousPosition = st.previousPosition := rfl
  rw [h]
  split
  · simp [DeepState.relabel, Except.map]
  · cases st.previousPosition with
    | none => rfl
    | some previous =>
      simp only
      split
      · exact appendGroup_relabel ρ g st
      · cases calculateDistance previous position with
        | error e => rfl
        | ok d =>
          simp only [bind, Except.bind]
          rw [popGroupLists_relabel]
          cases popGroupLists d.layersUp st with
          | error e => rfl
          | ok st1 =>
            simp only [Except.map]
            rw [pushGroupLists_relabel]
            cases pushGroupLists (d.layersDown - 1) st1 with
            | error e => rfl
            | ok st2 => exact appendGroup_relabel ρ g st2

variable {ρ} in
theorem fair_truthy (hρ : ρ.Fair) (e : Option PyStr) : truthy (e.map ρ.expression) = truthy e := by
  cases e with
  | none => rfl
  | some e =>
    simp only [Option.map_some, truthy]
    have := hρ.empty e
    cases e <;> cases h : ρ.expression _ <;> simp_all

variable {ρ} in
theorem fair_notBlank (hρ : ρ.Fair) (e : Option PyStr) : isNotBlank (e.map ρ.expression) = isNotBlank e := by
  cases e with
  | none => rfl
  | some e =>
    have h1 := fair_truthy hρ (some e)
    simp only [Option.map_some, truthy] at h1
    have h2 : decide ((Verif.strip (ρ.expression e)).length ≠ 0) = decide ((Verif.strip e).length ≠ 0) := by
      rw [← trim_eq, ← trim_eq, hρ.strip_expression]
      refine decide_eq_decide.2 (not_congr ?_)
      rw [List.length_eq_zero_iff, List.length_eq_zero_iff]
      exact hρ.empty _
    simp only [Option.map_some, isNotBlank]
    rw [h1, h2]

variable {ρ} in
theorem checkExpression_relabel (hρ : ρ.Fair) (e : Option PyStr) :
    checkSegmentLevelExpression (e.map ρ.expression) = (checkSegmentLevelExpression e).map ρ.expression := by
  cases e with
  | none => rfl
  | some e =>
    have := fair_notBlank hρ (some e)
    rw [Option.map_some] at this
    simp only [Option.map_some, checkSegmentLevelExpression, this]
    split <;> rfl

variable {ρ}

theorem segmentGroup_new_relabel (hρ : ρ.Fair) (d e : Option PyStr) (i : Option Int) :
    SegmentGroup.new d (e.map ρ.expression) (ρ.index i) (some []) (some []) =
      (SegmentGroup.new d e i (some []) (some [])).map (SegmentGroup.relabel ρ) := by
  unfold SegmentGroup.new
  rw [checkExpression_relabel hρ]
  cases checkSegmentLevelExpression e with
  | error x => rfl
  | ok x => simp [bind, Except.bind, pure, Except.pure, Except.map, SegmentGroup.relabel, SegmentGroup.relabelOpt, SegmentGroup.relabelList]

theorem segment_new_relabel (hρ : ρ.Fair) (d e : Option PyStr) (i : Option Int) (s : Option PyStr) :
    Segment.new d (e.map ρ.expression) (ρ.index i) [] (ρ.sectionName s) none = (Segment.new d e i [] s none).map (Segment.relabel ρ) := by
  unfold Segment.new
  rw [checkExpression_relabel hρ]
  cases checkSegmentLevelExpression e with
  | error x => rfl
  | ok x => rfl

theorem maybeOpenGroup_bare (hρ : ρ.Fair) (l ll : AhbLine) (position : AhbLocation) (stack : Option EdifactStack) (st : DeepState) :
    maybeOpenGroup (l.bare ρ) (ll.bare ρ) position stack (st.relabel ρ) = (maybeOpenGroup l ll position stack st).map (DeepState.relabel ρ) := by
  unfold maybeOpenGroup
  cases pyLast position.layers with
  | error e => rfl
  | ok lastLayer =>
    simp only [bind, Except.bind]
    have h : opensGroup (st.relabel ρ).usedStacks (l.bare ρ) (ll.bare ρ) lastLayer stack = opensGroup st.usedStacks l ll lastLayer stack := by
      unfold opensGroup
      have : (l.bare ρ).ahbExpression.isSome = l.ahbExpression.isSome := Option.isSome_map ..
      rw [this]
      rfl
    rw [h]
    split
    · have h2 : SegmentGroup.new (stack.map EdifactStack.toJsonPath) ((l.bare ρ).ahbExpression.map Verif.strip) (l.bare ρ).index (some []) (some [])
          = (SegmentGroup.new (stack.map EdifactStack.toJsonPath) (l.ahbExpression.map Verif.strip) l.index (some []) (some [])).map (SegmentGroup.relabel ρ) :=
        by
          have e : (l.bare ρ).ahbExpression.map Verif.strip = (l.ahbExpression.map Verif.strip).map ρ.expression := by
            change (l.ahbExpression.map ρ.expression).map Verif.strip = _
            rw [Option.map_map, Option.map_map]
            congr 1
            exact funext fun x => by
              have := hρ.strip_expression x
              rwa [trim_eq, trim_eq] at this
          rw [e]
          exact segmentGroup_new_relabel hρ _ _ _
      rw [h2]
      cases SegmentGroup.new (stack.map EdifactStack.toJsonPath) (l.ahbExpression.map Verif.strip) l.index (some []) (some []) with
      | error e => rfl
      | ok g => exact insertGroup_relabel ρ g position { st with usedStacks := st.usedStacks ++ (stack.map EdifactStack.toJsonPath).toList }
    · rfl

theorem groupBy_map {α β κ : Type} [DecidableEq κ] (f : α → β) (key : α → κ) (key' : β → κ) (h : ∀ x, key' (f x) = key x) (l : List α) :
    groupBy key' (l.map f) = (groupBy key l).map fun x => (x.1, x.2.map f) := by
  induction l with
  | nil => rfl
  | cons x l ih =>
    rw [List.map_cons, groupBy, groupBy, ih, h]
    cases groupBy key l with
    | nil => rfl
    | cons y rest =>
      obtain ⟨k, g⟩ := y
      simp only [List.map_cons]
      split <;> simp

theorem entry_new_relabel (hρ : ρ.Fair) (q : Option PyStr) (n : PyStr) (e : Option PyStr) :
    ValuePoolEntry.new q (some (Verif.strip (ρ.name n))) (e.map ρ.expression) =
      (ValuePoolEntry.new q (some (Verif.strip n)) e).map (ValuePoolEntry.relabel ρ) := by
  unfold ValuePoolEntry.new
  rw [fair_notBlank hρ, ← trim_eq, ← trim_eq, hρ.strip_name]
  split
  · rfl
  · simp only
    split
    · rfl
    · cases e with
      | none => simp_all [isNotBlank]
      | some e => rfl

theorem mergeEntries_bare (hρ : ρ.Fair) (l : List AhbLine) :
    mergeEntries (l.map (AhbLine.bare ρ)) = (mergeEntries l).map (List.map (ValuePoolEntry.relabel ρ)) := by
  induction l with
  | nil => rfl
  | cons x l ih =>
    have h1 : (x.bare ρ).ahbExpression = x.ahbExpression.map ρ.expression := rfl
    have h2 : (x.bare ρ).name = x.name.map ρ.name := rfl
    have h3 : (x.bare ρ).valuePoolEntry = x.valuePoolEntry := rfl
    rw [List.map_cons, mergeEntries, mergeEntries, ih, h1, h2, h3, fair_truthy hρ]
    split
    · rfl
    · cases x.name with
      | none => rfl
      | some n =>
        simp only [Option.map_some]
        rw [entry_new_relabel hρ]
        cases ValuePoolEntry.new x.valuePoolEntry (some (Verif.strip n)) x.ahbExpression with
        | error e => rfl
        | ok e => cases mergeEntries l <;> rfl

variable (ρ) in
theorem map_attr {β : Type} (attr : AhbLine → β) (h : ∀ l, attr (l.bare ρ) = attr l) (l : List AhbLine) :
    (l.map (AhbLine.bare ρ)).map attr = l.map attr := by
  rw [List.map_map]
  exact List.map_congr_left fun x _ => h x

theorem newFreeText_relabel (hρ : ρ.Fair) (d i e : Option PyStr) (t : Option DataElementDataType) :
    DataElement.newFreeText d i none (e.map ρ.expression) t = (DataElement.newFreeText d i none e t).map (DataElement.relabel ρ) := by
  unfold DataElement.newFreeText
  cases DataElement.checkBase d i with
  | error x => rfl
  | ok x =>
    cases e with
    | none => rfl
    | some e =>
      have := fair_notBlank hρ (some e)
      rw [Option.map_some] at this
      simp only [Option.map_some, this, bind, Except.bind]
      split <;> rfl

theorem merge_bare (hρ : ρ.Fair) (l : List AhbLine) (stack : Option EdifactStack) :
    mergeLinesWithSameDataElement (l.map (AhbLine.bare ρ)) stack = (mergeLinesWithSameDataElement l stack).map (DataElement.relabel ρ) := by
  unfold mergeLinesWithSameDataElement distinctDataElements
  rw [map_attr ρ _ (fun _ => rfl), mergeEntries_bare hρ]
  split
  · rfl
  · cases l with
    | nil => rfl
    | cons l0 ls =>
      have h1 : (l0.bare ρ).ahbExpression = l0.ahbExpression.map ρ.expression := rfl
      have h2 : (l0.bare ρ).valuePoolEntry = l0.valuePoolEntry := rfl
      have h3 : (l0.bare ρ).segmentCode = l0.segmentCode := rfl
      have h4 : (l0.bare ρ).dataElement = l0.dataElement := rfl
      simp only [List.map_cons]
      rw [h1, h2, h3, h4]
      split
      · cases DataElement.newValuePool (stack.map EdifactStack.toJsonPath) l0.dataElement none [] with
        | error e => rfl
        | ok r =>
          cases mergeEntries (l0 :: ls) with
          | error e => rfl
          | ok es => rfl
      · rw [newFreeText_relabel hρ]
        cases DataElement.newFreeText (stack.map EdifactStack.toJsonPath) l0.dataElement none l0.ahbExpression with
        | error e => rfl
        | ok r => cases deriveDataTypeFromSegmentCode l0.segmentCode <;> rfl

variable (ρ) in
theorem any_bare (p : AhbLine → Bool) (h : ∀ l, p (l.bare ρ) = p l) (l : List AhbLine) : (l.map (AhbLine.bare ρ)).any p = l.any p := by
  rw [List.any_map]
  congr 1
  exact funext h

theorem createSegment_bare (hρ : ρ.Fair) (posStr : AhbLocation → PyStr) (lines : List AhbLine) (line : AhbLine) (position : AhbLocation)
    (stack : Option EdifactStack) (st : DeepState) :
    createSegment posStr (lines.map (AhbLine.bare ρ)) (line.bare ρ) position stack (st.relabel ρ) =
      (createSegment posStr lines line position stack st).map (DeepState.relabel ρ) := by
  unfold createSegment
  rw [find_bare (AhbLine.bare ρ) _ (fun l => fair_truthy hρ l.ahbExpression)]
  cases lines.find? fun l => truthy l.ahbExpression with
  | none => rfl
  | some el =>
    simp only [Option.map_some]
    have h2 : ∀ d : PyStr, Segment.new (some d) (el.bare ρ).ahbExpression (line.bare ρ).index [] (line.bare ρ).sectionName none
        = (Segment.new (some d) el.ahbExpression line.index [] line.sectionName none).map (Segment.relabel ρ) :=
      fun d => segment_new_relabel hρ _ _ _ _
    rw [h2]
    cases Segment.new (some (match stack with | none => posStr position | some s => s.toJsonPath)) el.ahbExpression line.index []
        line.sectionName none with
    | error e => rfl
    | ok seg =>
      simp only [Except.map, bind, Except.bind]
      have h : (st.relabel ρ).segmentsHere = st.segmentsHere := rfl
      have h2 : (st.relabel ρ).lines = st.lines.map (SegmentGroup.relabel ρ) := rfl
      rw [h, h2]
      cases st.segmentsHere with
      | none => rfl
      | some p =>
        simp only
        rw [modifySegments_relabel ρ (f := (· ++ [seg])) (f' := (· ++ [seg.relabel ρ])) (fun l => by simp), groupsAt_relabel]
        have e : ((((((groupsAt st.lines p.dropLast).map (List.map (SegmentGroup.relabel ρ))).getD [])[p.getLast?.getD 0]?).bind SegmentGroup.segments).getD []).length
            = (((((groupsAt st.lines p.dropLast).getD [])[p.getLast?.getD 0]?).bind SegmentGroup.segments).getD []).length := by
          cases groupsAt st.lines p.dropLast with
          | none => rfl
          | some gs =>
            simp only [Option.map_some, Option.getD_some, List.getElem?_map]
            cases gs[p.getLast?.getD 0]? with
            | none => rfl
            | some g =>
              simp only [Option.map_some, Option.bind_some]
              rw [relabel_segments]
              cases g.segments <;> simp
        rw [e]
        rfl

theorem segmentStep_bare (hρ : ρ.Fair) (posStr : AhbLocation → PyStr) (lines : List AhbLine) (position : AhbLocation)
    (stack : Option EdifactStack) (st : DeepState) :
    segmentStep posStr (lines.map (AhbLine.bare ρ)) position stack (st.relabel ρ) =
      (segmentStep posStr lines position stack st).map (DeepState.relabel ρ) := by
  unfold segmentStep
  rw [List.head?_map, pyLast_map]
  cases lines.head? with
  | none => rfl
  | some l =>
    simp only [Option.map_some, bind, Except.bind]
    cases pyLast lines with
    | error e => rfl
    | ok ll =>
      simp only [Except.map]
      rw [maybeOpenGroup_bare hρ]
      cases maybeOpenGroup l ll position stack st with
      | error e => rfl
      | ok st' =>
        simp only [Except.map]
        have h1 : (ll.bare ρ).dataElement = ll.dataElement := rfl
        have h2 : (ll.bare ρ).segmentCode = ll.segmentCode := rfl
        rw [h1, h2]
        split
        · rfl
        · split
          · rfl
          · exact createSegment_bare hρ posStr lines l position stack st'

theorem dataElementStep_bare (hρ : ρ.Fair) (lines : List AhbLine) (position : AhbLocation) (stack : Option EdifactStack) (st : DeepState) :
    dataElementStep (lines.map (AhbLine.bare ρ)) position stack (st.relabel ρ) =
      (dataElementStep lines position stack st).map (DeepState.relabel ρ) := by
  unfold dataElementStep
  rw [any_bare ρ _ (fun _ => Option.isSome_map ..), merge_bare hρ]
  split
  · rfl
  · cases mergeLinesWithSameDataElement lines stack with
    | error e => rfl
    | ok de =>
      simp only [bind, Except.bind, Except.map]
      have h : (st.relabel ρ).dataElementsHere = st.dataElementsHere := rfl
      have h2 : (st.relabel ρ).lines = st.lines.map (SegmentGroup.relabel ρ) := rfl
      rw [h, h2]
      cases st.dataElementsHere with
      | none => rfl
      | some x =>
        obtain ⟨p, i⟩ := x
        simp only
        rw [modifySegments_relabel ρ (f := fun ss => ss.modify i fun s => { s with dataElements := s.dataElements ++ [de] })
          (f' := fun ss => ss.modify i fun s => { s with dataElements := s.dataElements ++ [de.relabel ρ] })
          (fun l => map_modify (Segment.relabel ρ) _ _ (fun s => by simp [Segment.relabel]) l i)]
        rfl

variable (ρ) in
theorem lookupStack_bare (reader : MigLookup) (key : AhbLocation) (group : List (AhbLine × AhbLocation)) :
    lookupStack reader key (group.map (bareFst (AhbLine.bare ρ))) = lookupStack reader key group := by
  unfold lookupStack
  rw [List.length_map, snd_bareFst]
  cases group <;> rfl

variable (ρ) in
def bareRun (item : AhbLocation × List (AhbLine × AhbLocation)) : AhbLocation × List (AhbLine × AhbLocation) :=
  (item.1, item.2.map (bareFst (AhbLine.bare ρ)))

theorem deepStep_bare (hρ : ρ.Fair) (reader : MigLookup) (posStr : AhbLocation → PyStr) (st : DeepState)
    (item : AhbLocation × List (AhbLine × AhbLocation)) :
    deepStep reader posStr (st.relabel ρ) (bareRun ρ item) = (deepStep reader posStr st item).map (DeepState.relabel ρ) := by
  unfold deepStep bareRun
  simp only
  have : (item.2.map (bareFst (AhbLine.bare ρ))).map Prod.fst = (item.2.map Prod.fst).map (AhbLine.bare ρ) := by rw [List.map_map, List.map_map]; rfl
  rw [this, any_bare ρ _ (fun _ => rfl), any_bare ρ _ (fun _ => rfl), lookupStack_bare]
  split
  · rfl
  · cases lookupStack reader item.1 item.2 with
    | error e => rfl
    | ok x =>
      simp only [bind, Except.bind]
      split
      · exact dataElementStep_bare hρ ..
      · exact segmentStep_bare hρ ..

theorem toDeepAhb_bare (hρ : ρ.Fair) (reader : MigLookup) (posStr : AhbLocation → PyStr) (flat : FlatAhb) (sgh : Sgh) :
    (toDeepAhb reader posStr { flat with lines := flat.lines.map (AhbLine.bare ρ) } sgh).map Prod.snd =
      (toDeepAhb reader posStr flat sgh).map fun r => r.2.relabel ρ := by
  unfold toDeepAhb
  simp only
  rw [determineLocations_bare (bare_keepsPlace ρ)]
  cases determineLocations sgh flat.lines with
  | error e => rfl
  | ok located =>
    simp only [Except.map, bind, Except.bind]
    rw [groupBy_map (bareFst (AhbLine.bare ρ)) (fun x => removeQualifier x.2) (fun x => removeQualifier x.2) (fun _ => rfl)]
    have := foldlM_map_state (DeepState.relabel ρ) (bareRun ρ) (deepStep reader posStr) (deepStep reader posStr)
      (deepStep_bare hρ reader posStr) (groupBy (fun x => removeQualifier x.2) located) DeepState.init
    have h0 : DeepState.init.relabel ρ = DeepState.init := rfl
    rw [h0] at this
    unfold bareRun at this
    rw [this]
    cases (groupBy (fun x => removeQualifier x.2) located).foldlM (deepStep reader posStr) DeepState.init <;> rfl

mutual
theorem relabel_numbers (k : Option Int → Option Int) : ∀ g : SegmentGroup, g.relabel (.numbers k) = g.renumber k
  | .mk d e i s gs => by
    have h : DataElement.relabel (.numbers k) = id := by
      funext x
      obtain ⟨a, b, c, t, kind⟩ := x
      have hv : ValuePoolEntry.relabel (.numbers k) = id := rfl
      cases kind with
      | freeText e => rfl
      | valuePool es => simp [DataElement.relabel, hv]
    have : Segment.relabel (.numbers k) = Segment.renumber k := by
      funext x
      simp only [Segment.relabel, Segment.renumber, h, List.map_id]
      rfl
    rw [SegmentGroup.relabel, relabelOpt_numbers k gs, this, SegmentGroup.renumber]
    rfl
theorem relabelOpt_numbers (k : Option Int → Option Int) : ∀ o : Option (List SegmentGroup),
    SegmentGroup.relabelOpt (.numbers k) o = SegmentGroup.renumberOpt k o
  | none => rfl
  | some l => by rw [SegmentGroup.relabelOpt, relabelList_numbers k l, SegmentGroup.renumberOpt]
theorem relabelList_numbers (k : Option Int → Option Int) : ∀ l : List SegmentGroup,
    SegmentGroup.relabelList (.numbers k) l = SegmentGroup.renumberList k l
  | [] => rfl
  | g :: l => by rw [SegmentGroup.relabelList, relabel_numbers k g, relabelList_numbers k l, SegmentGroup.renumberList]
end

theorem toDeepAhb_numbers (k : Option Int → Option Int) (reader : MigLookup) (posStr : AhbLocation → PyStr) (flat : FlatAhb) (sgh : Sgh) :
    (toDeepAhb reader posStr { flat with lines := flat.lines.map (AhbLine.bare (.numbers k)) } sgh).map Prod.snd =
      (toDeepAhb reader posStr flat sgh).map fun r => r.2.renumber k := by
  rw [toDeepAhb_bare (numbers_fair k)]
  have : ∀ a : DeepAhb, a.relabel (.numbers k) = a.renumber k := fun a => by
    rw [DeepAhb.relabel, DeepAhb.renumber, List.map_congr_left fun g _ => relabel_numbers k g]
  simp only [this]

theorem renumberList_eq (k : Option Int → Option Int) (l : List SegmentGroup) :
    SegmentGroup.renumberList k l = l.map (SegmentGroup.renumber k) := by
  induction l with
  | nil => rfl
  | cons g l ih => rw [SegmentGroup.renumberList, ih, List.map_cons]

mutual
theorem renumber_id : ∀ g : SegmentGroup, g.renumber id = g
  | .mk d e i s gs => by
    have : Segment.renumber id = id := rfl
    rw [SegmentGroup.renumber, renumberOpt_id gs, this]
    cases s <;> simp
theorem renumberOpt_id : ∀ o : Option (List SegmentGroup), SegmentGroup.renumberOpt id o = o
  | none => rfl
  | some l => by rw [SegmentGroup.renumberOpt, renumberList_id l]
theorem renumberList_id : ∀ l : List SegmentGroup, SegmentGroup.renumberList id l = l
  | [] => rfl
  | g :: l => by rw [SegmentGroup.renumberList, renumber_id g, renumberList_id l]
end

theorem deepAhb_renumber_id (a : DeepAhb) : a.renumber id = a := by
  have : a.lines.map (SegmentGroup.renumber id) = a.lines := by rw [← renumberList_eq, renumberList_id]
  rw [DeepAhb.renumber, this]

mutual
theorem renumber_none : ∀ g : SegmentGroup, g.renumber (fun _ => none) = g.resetAhbLineIndex
  | .mk d e i s gs => by
    rw [SegmentGroup.renumber, renumberOpt_none gs, SegmentGroup.resetAhbLineIndex]
    rfl
theorem renumberOpt_none : ∀ o : Option (List SegmentGroup), SegmentGroup.renumberOpt (fun _ => none) o = SegmentGroup.resetOpt o
  | none => rfl
  | some l => by rw [SegmentGroup.renumberOpt, renumberList_none l]; rfl
theorem renumberList_none : ∀ l : List SegmentGroup, SegmentGroup.renumberList (fun _ => none) l = SegmentGroup.resetList l
  | [] => rfl
  | g :: l => by rw [SegmentGroup.renumberList, renumber_none g, renumberList_none l]; rfl
end

theorem deepAhb_renumber_none (a : DeepAhb) : a.renumber (fun _ => none) = a.resetAhbLineIndex := by
  have : a.lines.map (SegmentGroup.renumber (fun _ => none)) = a.lines.map SegmentGroup.resetAhbLineIndex :=
    List.map_congr_left fun g _ => renumber_none g
  rw [DeepAhb.renumber, this]
  rfl

/-! ## the CSV reader does not read GUIDs -/

def AhbLine.noGuid (l : AhbLine) : AhbLine := { l with guid := none }

theorem map_noGuid_eq_iff (l l' : List AhbLine) :
    l.map AhbLine.noGuid = l'.map AhbLine.noGuid ↔ List.Forall₂ AhbLine.SameButGuid l l' :=
  map_eq_iff_forall₂ (fun _ _ => Iff.rfl) l l'

theorem SameButGuid.sameContent {a b : AhbLine} (h : a.SameButGuid b) : a.SameContent b := by
  cases a
  cases b
  simp only [AhbLine.SameButGuid, AhbLine.mk.injEq] at h
  simp [AhbLine.SameContent, h]

theorem sameOutcome_of_map {α β : Type} {R : α → α → Prop} (f : α → β) (hR : ∀ a b, f a = f b → R a b) {x y : PyRes α}
    (h : x.map f = y.map f) : SameOutcome R x y := by
  cases x <;> cases y <;> simp only [Except.map, Except.error.injEq, Except.ok.injEq, reduceCtorEq] at h
  · exact h
  · exact hR _ _ h

theorem SameOutcome.bind {α β γ δ : Type} {R : α → β → Prop} {S : γ → δ → Prop} {x : PyRes α} {y : PyRes β} (h : SameOutcome R x y)
    {f : α → PyRes γ} {g : β → PyRes δ} (hf : ∀ a b, R a b → SameOutcome S (f a) (g b)) : SameOutcome S (x >>= f) (y >>= g) := by
  cases x <;> cases y
  · exact h
  · exact h.elim
  · exact h.elim
  · exact hf _ _ h

def lineNoGuid (x : CsvState × Option AhbLine) : CsvState × Option AhbLine := (x.1, x.2.map AhbLine.noGuid)

theorem new_noGuid (l : AhbLine) (g : Fin (2 ^ 128)) :
    AhbLine.new { l with guid := some g.val } = (AhbLine.new { l with guid := none }).map fun m => { m with guid := some g.val } := by
  have : AhbLine.valid { l with guid := some g.val } = AhbLine.valid { l with guid := none } := by
    simp only [AhbLine.valid, decide_eq_true g.isLt]
  unfold AhbLine.new
  rw [this]
  split <;> rfl

theorem lineOf_noGuid (p : PyStr) (g g' : Fin (2 ^ 128)) (st : CsvState) (row : RawRow) (a b c : Option PyStr) (d : List (PyStr × PyStr)) :
    (rawRowToAhbLine.lineOf p g st row a b c d).map lineNoGuid = (rawRowToAhbLine.lineOf p g' st row a b c d).map lineNoGuid := by
  unfold rawRowToAhbLine.lineOf
  cases row.subscript py!"Segment" with
  | error e => rfl
  | ok segment =>
    simp only [bind, Except.bind]
    cases row.subscript py!"Datenelement" with
    | error e => rfl
    | ok de =>
      simp only
      cases row.subscript p with
      | error e => rfl
      | ok ex =>
        simp only
        cases replaceHardcodedSectionNames st.currentSectionName with
        | error e => rfl
        | ok sn =>
          simp only
          generalize hl : (AhbLine.mk none a (orNone? segment) (orNone? de) none b c (orNone? ex) none sn none) = l
          have h1 := new_noGuid l g
          have h2 := new_noGuid l g'
          subst hl
          simp only at h1 h2
          rw [h1, h2]
          cases AhbLine.new _ <;> rfl

theorem rawRow_noGuid (p : PyStr) (g g' : Fin (2 ^ 128)) (st : CsvState) (row : RawRow) :
    (rawRowToAhbLine p g st row).map lineNoGuid = (rawRowToAhbLine p g' st row).map lineNoGuid := by
  unfold rawRowToAhbLine
  cases row.subscript py!"Codes und Qualifier" with
  | error e => rfl
  | ok codes =>
    simp only [bind, Except.bind]
    cases row.subscript py!"Beschreibung" with
    | error e => rfl
    | ok beschreibung =>
      simp only
      cases row.subscript py!"Bedingung" with
      | error e => rfl
      | ok bedingung =>
        simp only
        cases row.subscript py!"Segment Gruppe" with
        | error e => rfl
        | ok gruppe =>
          simp only
          split
          · exact lineOf_noGuid ..
          · cases gruppe with
            | none => rfl
            | some gr =>
              simp only
              split
              · rfl
              · exact lineOf_noGuid ..

def linesNoGuid (x : CsvState × List AhbLine) : CsvState × List AhbLine := (x.1, x.2.map AhbLine.noGuid)

theorem readLoop_noGuid (p : PyStr) (guid guid' : Nat → Fin (2 ^ 128)) (rows : List RawRow) : ∀ i st,
    (readLoop p guid i st rows).map linesNoGuid = (readLoop p guid' i st rows).map linesNoGuid := by
  induction rows with
  | nil => intro i st; rfl
  | cons row rows ih =>
    intro i st
    rw [readLoop, readLoop]
    have h := rawRow_noGuid p (guid i) (guid' i) st row
    cases h1 : rawRowToAhbLine p (guid i) st row with
    | error e =>
      cases h2 : rawRowToAhbLine p (guid' i) st row with
      | error e' =>
        rw [h1, h2] at h
        simp only [Except.map, Except.error.injEq] at h
        rw [h]
        rfl
      | ok x => rw [h1, h2] at h; cases h
    | ok x =>
      cases h2 : rawRowToAhbLine p (guid' i) st row with
      | error e' => rw [h1, h2] at h; cases h
      | ok x' =>
        obtain ⟨s, l⟩ := x
        obtain ⟨s', l'⟩ := x'
        rw [h1, h2] at h
        simp only [Except.map, Except.ok.injEq, lineNoGuid, Prod.mk.injEq] at h
        obtain ⟨hs, hl⟩ := h
        simp only [bind, Except.bind]
        rw [hs]
        have hi := ih (i + 1) s'
        cases h3 : readLoop p guid (i + 1) s' rows with
        | error e =>
          cases h4 : readLoop p guid' (i + 1) s' rows with
          | error e' =>
            rw [h3, h4] at hi
            simp only [Except.map, Except.error.injEq] at hi
            rw [hi]
          | ok x => rw [h3, h4] at hi; cases hi
        | ok y =>
          cases h4 : readLoop p guid' (i + 1) s' rows with
          | error e' => rw [h3, h4] at hi; cases hi
          | ok y' =>
            obtain ⟨t, ls⟩ := y
            obtain ⟨t', ls'⟩ := y'
            rw [h3, h4] at hi
            simp only [Except.map, Except.ok.injEq, linesNoGuid, Prod.mk.injEq] at hi
            obtain ⟨ht, hls⟩ := hi
            rw [ht]
            cases l with
            | none =>
              cases l' with
              | none => simp [pure, Except.pure, Except.map, linesNoGuid, hls]
              | some b => simp at hl
            | some a =>
              cases l' with
              | none => simp at hl
              | some b =>
                simp only [Option.map_some, Option.some.injEq, AhbLine.noGuid, AhbLine.mk.injEq] at hl
                simp [pure, Except.pure, Except.map, linesNoGuid, AhbLine.noGuid, hls, hl]

def CsvReader.noGuids (r : CsvReader) : CsvReader := { r with rows := r.rows.map AhbLine.noGuid }

theorem csvReader_noGuid (guid guid' : Nat → Fin (2 ^ 128)) (records : List (List PyStr)) (p : Option PyStr) :
    (CsvReader.new guid records p).map CsvReader.noGuids = (CsvReader.new guid' records p).map CsvReader.noGuids := by
  unfold CsvReader.new
  cases choosePruefidentifikator p (dictReaderFields records) with
  | error e => rfl
  | ok q =>
    cases mergeSectionOnlyLines (dictReaderRows records) with
    | error e => rfl
    | ok merged =>
      simp only [bind, Except.bind]
      have h := readLoop_noGuid q guid guid' merged 0 {}
      cases h1 : readLoop q guid 0 {} merged with
      | error e =>
        cases h2 : readLoop q guid' 0 {} merged with
        | error e' =>
          rw [h1, h2] at h
          simp only [Except.map, Except.error.injEq] at h
          rw [h]
        | ok x => rw [h1, h2] at h; cases h
      | ok y =>
        cases h2 : readLoop q guid' 0 {} merged with
        | error e' => rw [h1, h2] at h; cases h
        | ok y' =>
          rw [h1, h2] at h
          simp only [Except.map, Except.ok.injEq, linesNoGuid, Prod.mk.injEq] at h
          simp [pure, Except.pure, Except.map, CsvReader.noGuids, h]

theorem csvReader_same (guid guid' : Nat → Fin (2 ^ 128)) (records : List (List PyStr)) (p : Option PyStr) :
    SameOutcome CsvReader.SameButGuids (CsvReader.new guid records p) (CsvReader.new guid' records p) := by
  refine sameOutcome_of_map CsvReader.noGuids (fun a b h => ?_) (csvReader_noGuid guid guid' records p)
  simp only [CsvReader.noGuids, CsvReader.mk.injEq] at h
  exact ⟨h.2.1, h.2.2, (map_noGuid_eq_iff _ _).1 h.1⟩

theorem splitWhen_map {α : Type} (p : α → α → Bool) (f : α → α) (h : ∀ x y, p (f x) (f y) = p x y) (l : List α) :
    splitWhen p (l.map f) = (splitWhen p l).map (List.map f) := by
  induction l with
  | nil => rfl
  | cons x l ih =>
    cases l with
    | nil => rfl
    | cons y l =>
      rw [List.map_cons, List.map_cons, splitWhen, splitWhen, h, ← List.map_cons, ih]
      split
      · rfl
      · cases splitWhen p (y :: l) <;> rfl

theorem checkLines_noGuid (lines : List AhbLine) : FlatAhb.checkLines (lines.map AhbLine.noGuid) = FlatAhb.checkLines lines := by
  have h1 : checkNearlyAllHaveSg (lines.map AhbLine.noGuid) = checkNearlyAllHaveSg lines := by
    unfold checkNearlyAllHaveSg removeGroupedContaining
    simp only
    rw [splitWhen_map noSgToSg AhbLine.noGuid (fun _ _ => rfl), List.filter_map, List.length_map]
    congr 5
    funext goal
    simp only [Function.comp, List.any_map]
    rfl
  have h2 : (lines.map AhbLine.noGuid).all AhbLine.flatOk = lines.all AhbLine.flatOk := by
    rw [List.all_map]
    rfl
  unfold FlatAhb.checkLines
  rw [h1, h2]

theorem toFlatAhb_same {r r' : CsvReader} (h : r.SameButGuids r') : SameOutcome FlatAhb.SameButGuids r.toFlatAhb r'.toFlatAhb := by
  obtain ⟨h1, _, h3⟩ := h
  have h4 : (r.rows.filter AhbLine.holdsAnyInformation).map AhbLine.noGuid = (r'.rows.filter AhbLine.holdsAnyInformation).map AhbLine.noGuid := by
    have e : ∀ l : List AhbLine, (l.filter AhbLine.holdsAnyInformation).map AhbLine.noGuid = (l.map AhbLine.noGuid).filter AhbLine.holdsAnyInformation := fun l => by
      rw [List.filter_map]; rfl
    rw [e, e, (map_noGuid_eq_iff _ _).2 h3]
  unfold CsvReader.toFlatAhb
  rw [h1]
  cases AhbMetaInformation.new { pruefidentifikator := r'.pruefidentifikator } with
  | error e => rfl
  | ok m =>
    simp only [bind, Except.bind, FlatAhb.new]
    rw [← checkLines_noGuid, h4, checkLines_noGuid]
    cases FlatAhb.checkLines (r'.rows.filter AhbLine.holdsAnyInformation) with
    | error e => rfl
    | ok _ => exact ⟨rfl, (map_noGuid_eq_iff _ _).1 h4⟩

end Verif
