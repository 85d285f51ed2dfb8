import Verif.Props.Deep
import Verif.Spec.DeepEdit
/-!
# C96 Histories of edits of a deep AHB, and edits that are interrupted by an exception
-/

namespace Verif

section
variable {σ : Type} (f : PyStr → σ → PyRes InputReplacement × σ)

theorem Visited.append {s s₁ s₂ : σ} {l l' k k' : List DataElement} {e : Option Exc} (h : Visited f s l l' s₁ none)
    (h2 : Visited f s₁ k k' s₂ e) : Visited f s (l ++ k) (l' ++ k') s₂ e := by
  generalize he : (none : Option Exc) = o at h
  induction h with
  | done s => exact h2
  | skip no _ ih => exact .skip no (ih h2 he)
  | replace hd hc _ ih => exact .replace hd hc (ih h2 he)
  | raise hd hc => cases he

theorem Visited.append_raised {s s₁ : σ} {l l' k : List DataElement} {x : Exc} (h : Visited f s l l' s₁ (some x)) :
    Visited f s (l ++ k) (l' ++ k) s₁ (some x) := by
  generalize he : some x = o at h
  induction h with
  | done s => cases he
  | skip no _ ih => exact .skip no (ih he)
  | replace hd hc _ ih => exact .replace hd hc (ih he)
  | raise hd hc => exact .raise hd hc

/-- the action visits the data elements `l`; `Q l' x`: the result `x` contains the data elements `l'` -/
def VisitsAct {α : Type} (act : StateM (σ × Option Exc) α) (l : List DataElement) (Q : List DataElement → α → Prop) : Prop :=
  (∀ s, ∃ x s' e l', act.run (s, none) = (x, s', e) ∧ Visited f s l l' s' e ∧ Q l' x) ∧
  (∀ s e, ∃ x, act.run (s, some e) = (x, s, some e) ∧ Q l x)

theorem VisitsAct.pure {α : Type} (x : α) {Q : List DataElement → α → Prop} (h : Q [] x) : VisitsAct f (Pure.pure x) [] Q :=
  ⟨fun s => ⟨x, s, none, [], rfl, .done s, h⟩, fun _ _ => ⟨x, rfl, h⟩⟩

theorem VisitsAct.bind {α β : Type} {act : StateM (σ × Option Exc) α} {k : α → StateM (σ × Option Exc) β} {l₁ l₂ : List DataElement}
    {Q : List DataElement → α → Prop} {R : List DataElement → β → Prop} (h : VisitsAct f act l₁ Q)
    (h2 : ∀ l' x, Q l' x → VisitsAct f (k x) l₂ fun l'' y => R (l' ++ l'') y) : VisitsAct f (act >>= k) (l₁ ++ l₂) R := by
  have e : ∀ s, (act >>= k).run s = (k (act.run s).1).run (act.run s).2 := fun _ => rfl
  constructor
  · intro s
    obtain ⟨x, s₁, o, l', hrun, hv, hq⟩ := h.1 s
    rw [e, hrun]
    cases o with
    | none =>
      obtain ⟨y, s₂, o₂, l'', hrun2, hv2, hr⟩ := (h2 l' x hq).1 s₁
      exact ⟨y, s₂, o₂, _, hrun2, hv.append f hv2, hr⟩
    | some ex =>
      obtain ⟨y, hrun2, hr⟩ := (h2 l' x hq).2 s₁ ex
      exact ⟨y, s₁, some ex, _, hrun2, hv.append_raised f, hr⟩
  · intro s ex
    obtain ⟨x, hrun, hq⟩ := h.2 s ex
    rw [e, hrun]
    exact (h2 _ x hq).2 s ex

theorem VisitsAct.imp {α : Type} {act : StateM (σ × Option Exc) α} {l k : List DataElement} {Q R : List DataElement → α → Prop}
    (h : VisitsAct f act l Q) (hl : l = k) (hq : ∀ l' x, Q l' x → R l' x) : VisitsAct f act k R := by
  subst hl
  refine ⟨fun s => ?_, fun s e => ?_⟩
  · obtain ⟨x, s', e, l', h1, h2, h3⟩ := h.1 s
    exact ⟨x, s', e, l', h1, h2, hq _ _ h3⟩
  · obtain ⟨x, h1, h3⟩ := h.2 s e
    exact ⟨x, h1, hq _ _ h3⟩

theorem VisitsAct.mapM {α β : Type} {act : α → StateM (σ × Option Exc) β} {l : α → List DataElement} {out : β → List DataElement}
    {E : α → β → Prop} (h : ∀ x, VisitsAct f (act x) (l x) fun l' y => l' = out y ∧ E x y) (xs : List α) :
    VisitsAct f (xs.mapM act) (xs.flatMap l) fun l' ys => l' = ys.flatMap out ∧ List.Forall₂ E xs ys := by
  induction xs with
  | nil => exact VisitsAct.pure f _ ⟨rfl, .nil⟩
  | cons x xs ih =>
    rw [List.mapM_cons]
    refine ((h x).bind f (R := fun l' ys => l' = ys.flatMap out ∧ List.Forall₂ E (x :: xs) ys) fun l' y hy => ?_).imp f rfl fun _ _ h => h
    refine (ih.bind f (l₂ := []) fun l'' ys hys => VisitsAct.pure f _ ?_).imp f (List.append_nil _) fun _ _ h => h
    simp [hy.1, hys.1, hy.2, hys.2]

theorem VisitsAct.dataElement (de : DataElement) : VisitsAct f (replaceInputDataElement (untilRaise f) de) [de]
    fun l' x => l' = [x] ∧ x.forgetInput = de.forgetInput := by
  unfold replaceInputDataElement
  constructor
  · intro s
    cases hd : de.discriminator with
    | none => exact ⟨de, s, none, [de], rfl, .skip hd (.done s), rfl, rfl⟩
    | some d =>
      rcases hc : f d s with ⟨r | r, s'⟩
      · have hu : (untilRaise f d).run (s, none) = (⟨false, none⟩, s', some r) := by simp only [StateT.run, untilRaise, hc]
        refine ⟨de, s', some r, [de], ?_, .raise hd hc, rfl, rfl⟩
        have e : ∀ k : InputReplacement → StateM (σ × Option Exc) DataElement, (untilRaise f d >>= k).run (s, none) =
          (k ((untilRaise f d).run (s, none)).1).run ((untilRaise f d).run (s, none)).2 := fun _ => rfl
        simp only [e, hu]
        rfl
      · have hu : (untilRaise f d).run (s, none) = (r, s', none) := by simp only [StateT.run, untilRaise, hc]
        refine ⟨de.withReplacement r, s', none, _, ?_, .replace hd hc (.done s'), rfl, ?_⟩
        · have e : ∀ k : InputReplacement → StateM (σ × Option Exc) DataElement, (untilRaise f d >>= k).run (s, none) =
            (k ((untilRaise f d).run (s, none)).1).run ((untilRaise f d).run (s, none)).2 := fun _ => rfl
          simp only [e, hu]
          rw [← hd]
          rfl
        · unfold DataElement.withReplacement DataElement.forgetInput
          split <;> rfl
  · intro s e
    cases hd : de.discriminator with
    | none => exact ⟨de, rfl, rfl, rfl⟩
    | some d => exact ⟨de, rfl, rfl, rfl⟩

theorem forall₂_map_eq {α β : Type} {g : α → β} {l l' : List α} (h : List.Forall₂ (fun x y => g y = g x) l l') : l'.map g = l.map g := by
  induction h with
  | nil => rfl
  | cons h _ ih => simp [h, ih]

/-- the segment with forgotten inputs -/
def Segment.forgetInputs (x : Segment) : Segment := { x with dataElements := x.dataElements.map DataElement.forgetInput }

theorem VisitsAct.segment (x : Segment) : VisitsAct f (replaceInputSegment (untilRaise f) x) x.dataElements
    fun l' y => l' = y.dataElements ∧ y.forgetInputs = x.forgetInputs := by
  unfold replaceInputSegment
  refine ((VisitsAct.mapM f (out := fun y => [y]) (VisitsAct.dataElement f) x.dataElements).bind f (l₂ := []) fun l' ys h =>
    VisitsAct.pure f _ ?_).imp f (by simp) fun _ _ h => h
  refine ⟨by simp [h.1], ?_⟩
  simp only [Segment.forgetInputs, forall₂_map_eq h.2]

mutual
theorem VisitsAct.group : ∀ g : SegmentGroup, VisitsAct f (replaceInputGroup (untilRaise f) g) g.bottomUp
    fun l' y => l' = y.bottomUp ∧ y.mapDataElements DataElement.forgetInput = g.mapDataElements DataElement.forgetInput
  | .mk d e i none gs => by
    simp only [replaceInputGroup]
    refine ((VisitsAct.groupOpt gs).bind f (l₂ := []) fun l' y h => VisitsAct.pure f _ ?_).imp f (by simp [SegmentGroup.bottomUp])
      fun _ _ h => h
    simp [SegmentGroup.bottomUp, SegmentGroup.mapDataElements, h.1, h.2]
  | .mk d e i (some ss) gs => by
    simp only [replaceInputGroup]
    refine ((VisitsAct.groupOpt gs).bind f (l₂ := ss.flatMap Segment.dataElements) fun l' y h => ?_).imp f
      (by simp [SegmentGroup.bottomUp]) fun _ _ h => h
    refine ((VisitsAct.mapM f (VisitsAct.segment f) ss).bind f (l₂ := []) fun l'' ys h2 => VisitsAct.pure f _ ?_).imp f (by simp)
      fun _ _ h => h
    have := forall₂_map_eq h2.2
    unfold Segment.forgetInputs at this
    simp [SegmentGroup.bottomUp, SegmentGroup.mapDataElements, h.1, h.2, h2.1, this]
theorem VisitsAct.groupOpt : ∀ o : Option (List SegmentGroup), VisitsAct f (replaceInputOpt (untilRaise f) o) (SegmentGroup.bottomUpOpt o)
    fun l' y => l' = SegmentGroup.bottomUpOpt y ∧
      SegmentGroup.mapDataElementsOpt DataElement.forgetInput y = SegmentGroup.mapDataElementsOpt DataElement.forgetInput o
  | none => VisitsAct.pure f _ ⟨rfl, rfl⟩
  | some l => by
    simp only [replaceInputOpt]
    refine ((VisitsAct.groups l).bind f (l₂ := []) fun l' y h => VisitsAct.pure f _ ?_).imp f (by simp [SegmentGroup.bottomUpOpt])
      fun _ _ h => h
    simp [SegmentGroup.bottomUpOpt, SegmentGroup.mapDataElementsOpt, h.1, h.2]
theorem VisitsAct.groups : ∀ l : List SegmentGroup, VisitsAct f (replaceInputs (untilRaise f) l) (SegmentGroup.bottomUpList l)
    fun l' y => l' = SegmentGroup.bottomUpList y ∧
      SegmentGroup.mapDataElementsList DataElement.forgetInput y = SegmentGroup.mapDataElementsList DataElement.forgetInput l
  | [] => VisitsAct.pure f _ ⟨rfl, rfl⟩
  | g :: l => by
    simp only [replaceInputs]
    refine ((VisitsAct.group g).bind f (l₂ := SegmentGroup.bottomUpList l) fun l' y h => ?_).imp f (by simp [SegmentGroup.bottomUpList])
      fun _ _ h => h
    refine ((VisitsAct.groups l).bind f (l₂ := []) fun l'' ys h2 => VisitsAct.pure f _ ?_).imp f (by simp) fun _ _ h => h
    simp [SegmentGroup.bottomUpList, SegmentGroup.mapDataElementsList, h.1, h.2, h2.1, h2.2]
end

/-- **C96** `replace_inputs_based_on_discriminator` with an arbitrary function, which may have a state and may raise: the data elements are
visited one after the other, those of the groups below a group first; if the function raises, this exception is raised and the data
elements visited so far keep their replacements. Nothing but entered inputs changes. -/
theorem C96_in_place (a a' : DeepAhb) (s s' : σ) (e : Option Exc) (h : a.replaceInputsInPlace f s = (a', s', e)) :
    Visited f s (SegmentGroup.bottomUpList a.lines) (SegmentGroup.bottomUpList a'.lines) s' e ∧ a'.SameButInputs a := by
  have key : VisitsAct f (a.replaceInputsBasedOnDiscriminator (untilRaise f)) (SegmentGroup.bottomUpList a.lines)
      fun l' y => l' = SegmentGroup.bottomUpList y.lines ∧ y.SameButInputs a := by
    unfold DeepAhb.replaceInputsBasedOnDiscriminator
    refine ((VisitsAct.groups f a.lines).bind f (l₂ := []) fun l' y h => VisitsAct.pure f _ ?_).imp f (by simp) fun _ _ h => h
    exact ⟨by simp [h.1], rfl, h.2⟩
  obtain ⟨x, s₁, e₁, l', h1, h2, h3, h4⟩ := key.1 s
  unfold DeepAhb.replaceInputsInPlace at h
  rw [h1] at h
  cases h
  exact ⟨h3 ▸ h2, h4⟩

end

/-- **C96** if a function without state raises for some discriminator, the visited data elements before the first one with such a
discriminator are replaced, and this one and all later ones stay as they are. -/
theorem C96_interrupted (f : PyStr → PyRes InputReplacement) (a a' : DeepAhb) (x : Exc)
    (h : a.replaceInputsInPlace (stateless f) () = (a', (), some x)) :
    a'.SameButInputs a ∧ ∃ pre de post d, SegmentGroup.bottomUpList a.lines = pre ++ de :: post ∧
      SegmentGroup.bottomUpList a'.lines = pre.map (DataElement.visited f) ++ de :: post ∧
      de.discriminator = some d ∧ f d = .error x ∧ ∀ de' ∈ pre, ∀ d', de'.discriminator = some d' → ∃ r, f d' = .ok r := by
  obtain ⟨hv, hs⟩ := C96_in_place _ _ _ _ _ _ h
  refine ⟨hs, ?_⟩
  generalize SegmentGroup.bottomUpList a.lines = l at hv ⊢
  generalize SegmentGroup.bottomUpList a'.lines = l' at hv ⊢
  generalize he : some x = o at hv
  obtain ⟨u, w, hv'⟩ : ∃ u w, Visited (stateless f) u l l' w o := ⟨(), (), hv⟩
  clear h hs hv
  induction hv' with
  | done s => cases he
  | skip no _ ih =>
    rename_i de _ _ _ _
    obtain ⟨pre, de₁, post, d, h1, h2, h3, h4, h5⟩ := ih he
    refine ⟨de :: pre, de₁, post, d, by simp [h1], by simp [h2, DataElement.visited, no], h3, h4, ?_⟩
    intro de' hde d' hd'
    rcases List.mem_cons.1 hde with rfl | hde
    · rw [no] at hd'; cases hd'
    · exact h5 de' hde d' hd'
  | replace hd hc _ ih =>
    rename_i de _ _ _ d₁ r _
    have hc' : f d₁ = .ok r := (Prod.mk.inj hc).1
    obtain ⟨pre, de₁, post, d, h1, h2, h3, h4, h5⟩ := ih he
    refine ⟨de :: pre, de₁, post, d, by simp [h1], by simp [h2, DataElement.visited, hd, hc'], h3, h4, ?_⟩
    intro de' hde d' hd'
    rcases List.mem_cons.1 hde with rfl | hde
    · rw [hd] at hd'; cases hd'; exact ⟨_, hc'⟩
    · exact h5 de' hde d' hd'
  | raise hd hc =>
    rename_i de l d x'
    cases he
    exact ⟨[], de, l, d, rfl, rfl, hd, (Prod.mk.inj hc).1, fun _ h => absurd h (by simp)⟩

/-! ## histories -/

theorem replaceInputDataElement_id (f : PyStr → InputReplacement) (de : DataElement) :
    replaceInputDataElement (m := Id) (fun d => pure (f d)) de = replacedDataElement f de := by
  unfold replaceInputDataElement replacedDataElement
  cases de.discriminator <;> rfl

theorem mapM_id_eq {α β : Type} {g : α → Id β} {k : α → β} (h : ∀ x, g x = k x) (l : List α) : (l.mapM g : Id (List β)) = l.map k := by
  induction l with
  | nil => rfl
  | cons x l ih =>
    rw [List.mapM_cons]
    show (g x :: (l.mapM g : Id (List β)) : List β) = _
    rw [ih, h]
    rfl

theorem replaceInputSegment_id (f : PyStr → InputReplacement) (x : Segment) :
    replaceInputSegment (m := Id) (fun d => pure (f d)) x = { x with dataElements := x.dataElements.map (replacedDataElement f) } := by
  unfold replaceInputSegment
  show ({ x with dataElements := (x.dataElements.mapM (m := Id) _ : List DataElement) } : Segment) = _
  rw [mapM_id_eq (replaceInputDataElement_id f)]

mutual
theorem replaceInputGroup_id (f : PyStr → InputReplacement) : ∀ g : SegmentGroup,
    replaceInputGroup (m := Id) (fun d => pure (f d)) g = g.mapDataElements (replacedDataElement f)
  | .mk d e i none gs => by
    simp only [replaceInputGroup, SegmentGroup.mapDataElements, replaceInputOpt_id f gs]
    rfl
  | .mk d e i (some ss) gs => by
    simp only [replaceInputGroup, SegmentGroup.mapDataElements, replaceInputOpt_id f gs, mapM_id_eq (replaceInputSegment_id f)]
    rfl
theorem replaceInputOpt_id (f : PyStr → InputReplacement) : ∀ o : Option (List SegmentGroup),
    replaceInputOpt (m := Id) (fun d => pure (f d)) o = SegmentGroup.mapDataElementsOpt (replacedDataElement f) o
  | none => rfl
  | some l => by
    simp only [replaceInputOpt, SegmentGroup.mapDataElementsOpt, replaceInputs_id f l]
    rfl
theorem replaceInputs_id (f : PyStr → InputReplacement) : ∀ l : List SegmentGroup,
    replaceInputs (m := Id) (fun d => pure (f d)) l = SegmentGroup.mapDataElementsList (replacedDataElement f) l
  | [] => rfl
  | g :: l => by
    simp only [replaceInputs, SegmentGroup.mapDataElementsList, replaceInputGroup_id f g, replaceInputs_id f l]
    rfl
end

theorem apply_replaceInputs (f : PyStr → InputReplacement) (a : DeepAhb) :
    DeepEdit.apply a (.replaceInputs f) = { a with lines := SegmentGroup.mapDataElementsList (replacedDataElement f) a.lines } := by
  show ({ a with lines := (replaceInputs (m := Id) (fun d => pure (f d)) a.lines : List SegmentGroup) } : DeepAhb) = _
  rw [replaceInputs_id]

theorem mapDataElementsList_comp (h k : DataElement → DataElement) (l : List SegmentGroup) :
    SegmentGroup.mapDataElementsList h (SegmentGroup.mapDataElementsList k l) = SegmentGroup.mapDataElementsList (h ∘ k) l := by
  have key : ∀ g : SegmentGroup, (g.mapDataElements k).mapDataElements h = g.mapDataElements (h ∘ k) := by
    intro g
    induction g using SegmentGroup.induct with
    | h g ih =>
      cases g with
      | mk d e i s gs =>
        cases gs with
        | none => cases s <;> simp [SegmentGroup.mapDataElements, SegmentGroup.mapDataElementsOpt]
        | some l =>
          have : (l.map (SegmentGroup.mapDataElements k)).map (SegmentGroup.mapDataElements h) = l.map (SegmentGroup.mapDataElements (h ∘ k)) := by
            rw [List.map_map]
            exact List.map_congr_left fun c hc => ih c hc
          cases s <;> simp [SegmentGroup.mapDataElements, SegmentGroup.mapDataElementsOpt, mapDataElementsList_eq] <;>
            exact fun c hc => ih c hc
  rw [mapDataElementsList_eq, mapDataElementsList_eq, mapDataElementsList_eq, List.map_map]
  exact List.map_congr_left fun c _ => key c

theorem reset_mapDataElementsList (h : DataElement → DataElement) (l : List SegmentGroup) :
    (SegmentGroup.mapDataElementsList h l).map SegmentGroup.resetAhbLineIndex =
      SegmentGroup.mapDataElementsList h (l.map SegmentGroup.resetAhbLineIndex) := by
  have key : ∀ g : SegmentGroup, (g.mapDataElements h).resetAhbLineIndex = g.resetAhbLineIndex.mapDataElements h := by
    intro g
    induction g using SegmentGroup.induct with
    | h g ih =>
      cases g with
      | mk d e i s gs =>
        cases gs with
        | none => cases s <;> simp [SegmentGroup.mapDataElements, SegmentGroup.mapDataElementsOpt, SegmentGroup.resetAhbLineIndex,
            SegmentGroup.resetOpt, Segment.resetAhbLineIndex]
        | some l => cases s <;> simp [SegmentGroup.mapDataElements, SegmentGroup.mapDataElementsOpt, SegmentGroup.resetAhbLineIndex,
            SegmentGroup.resetOpt, Segment.resetAhbLineIndex, mapDataElementsList_eq, resetList_eq] <;> exact fun c hc => ih c hc
  rw [mapDataElementsList_eq, mapDataElementsList_eq, List.map_map, List.map_map]
  exact List.map_congr_left fun c _ => key c

theorem mapDataElementsList_id (l : List SegmentGroup) : SegmentGroup.mapDataElementsList id l = l := by
  have key : ∀ g : SegmentGroup, g.mapDataElements id = g := by
    intro g
    induction g using SegmentGroup.induct with
    | h g ih =>
      cases g with
      | mk d e i s gs =>
        cases gs with
        | none => cases s <;> simp [SegmentGroup.mapDataElements, SegmentGroup.mapDataElementsOpt]
        | some l =>
          have : l.map (SegmentGroup.mapDataElements id) = l := by
            conv_rhs => rw [← List.map_id l]
            exact List.map_congr_left fun c hc => ih c hc
          cases s <;> simp [SegmentGroup.mapDataElements, SegmentGroup.mapDataElementsOpt, mapDataElementsList_eq, this]
  rw [mapDataElementsList_eq]
  conv_rhs => rw [← List.map_id l]
  exact List.map_congr_left fun c _ => key c

theorem edited_replaced (f : PyStr → InputReplacement) (edits : List DeepEdit) (de : DataElement) :
    (replacedDataElement f de).edited edits = de.edited (.replaceInputs f :: edits) := by
  have hdisc : (replacedDataElement f de).discriminator = de.discriminator := by
    unfold replacedDataElement
    split
    · rfl
    · split <;> rfl
  unfold DataElement.edited
  rw [hdisc]
  cases hd : de.discriminator with
  | none => simp [replacedDataElement, hd]
  | some d =>
    simp only [Option.bind_some, lastReplacement]
    cases lastReplacement d edits with
    | some r =>
      simp only [replacedDataElement, hd]
      split <;> rfl
    | none =>
      simp only [replacedDataElement, hd]
      split <;> simp_all

open Classical in
/-- **C96** any number of calls of `reset_ahb_line_index` and `replace_inputs_based_on_discriminator` in any order: the entered input of a
data element is the one of the last call that reports a replacement for its discriminator (also if that is `None`), and the one it had
before if there is no such call; the line indices are gone if and only if they have been reset once. Nothing else changes. -/
theorem C96_history (a : DeepAhb) (edits : List DeepEdit) :
    (a.edit edits).ahbMeta = a.ahbMeta ∧ (a.edit edits).lines = SegmentGroup.mapDataElementsList (DataElement.edited edits)
      (if DeepEdit.resetAhbLineIndex ∈ edits then a.resetAhbLineIndex.lines else a.lines) := by
  induction edits generalizing a with
  | nil =>
    have : DataElement.edited [] = id := by
      funext de
      unfold DataElement.edited
      cases de.discriminator <;> rfl
    rw [this, mapDataElementsList_id]
    simp [DeepAhb.edit]
  | cons x edits ih =>
    have h : a.edit (x :: edits) = (x.apply a).edit edits := rfl
    rw [h, (ih _).1, (ih _).2]
    cases x with
    | resetAhbLineIndex =>
      have : DataElement.edited (.resetAhbLineIndex :: edits) = DataElement.edited edits := rfl
      rw [this]
      have h2 : DeepEdit.apply a .resetAhbLineIndex = a.resetAhbLineIndex := rfl
      rw [h2, (C27_idempotent a).1]
      simp only [List.mem_cons, true_or, if_true, ite_self, and_true]
      rfl
    | replaceInputs f =>
      rw [apply_replaceInputs]
      have hc : DataElement.edited edits ∘ replacedDataElement f = DataElement.edited (.replaceInputs f :: edits) :=
        funext fun de => edited_replaced f edits de
      simp only [List.mem_cons, reduceCtorEq, false_or, DeepAhb.resetAhbLineIndex, reset_mapDataElementsList, true_and]
      split <;> rw [mapDataElementsList_comp, hc]

theorem edit_eq_iff (a : DeepAhb) (l k : List DeepEdit) : a.edit l = a.edit k ↔ (a.edit l).lines = (a.edit k).lines := by
  refine ⟨fun h => by rw [h], fun h => ?_⟩
  have h1 := (C96_history a l).1
  rw [← (C96_history a k).1] at h1
  generalize a.edit l = x at h h1 ⊢
  generalize a.edit k = y at h h1 ⊢
  cases x; cases y
  simp_all

/-- **C96** the order in which indices are reset and inputs are replaced does not matter. -/
theorem C96_commute (a : DeepAhb) (f : PyStr → InputReplacement) :
    a.edit [.resetAhbLineIndex, .replaceInputs f] = a.edit [.replaceInputs f, .resetAhbLineIndex] := by
  rw [edit_eq_iff, (C96_history a _).2, (C96_history a _).2]
  simp [show DataElement.edited [.resetAhbLineIndex, .replaceInputs f] = DataElement.edited [.replaceInputs f, .resetAhbLineIndex] from rfl]

/-- **C96** to replace the inputs again with the same function changes nothing. -/
theorem C96_idempotent (a : DeepAhb) (f : PyStr → InputReplacement) :
    a.edit [.replaceInputs f, .replaceInputs f] = a.edit [.replaceInputs f] := by
  rw [edit_eq_iff, (C96_history a _).2, (C96_history a _).2]
  have : DataElement.edited [.replaceInputs f, .replaceInputs f] = DataElement.edited [.replaceInputs f] := by
    funext de
    unfold DataElement.edited
    congr 1
    cases de.discriminator with
    | none => rfl
    | some d =>
      simp only [Option.bind_some, lastReplacement]
      split <;> simp_all
  rw [this]
  simp

/-! ## examples -/

/-- a function that replaces every input and raises at the 2nd call -/
def raiseAtSecond (_ : PyStr) (n : Nat) : PyRes InputReplacement × Nat :=
  (if n = 1 then .error .keyError else .ok ⟨true, some py!"new"⟩, n + 1)

/-- the data element of the innermost group is replaced, the one of the outermost group is not -/
example : (exDeep.replaceInputsInPlace raiseAtSecond 0).2 = (2, some .keyError) ∧
    (SegmentGroup.bottomUpList (exDeep.replaceInputsInPlace raiseAtSecond 0).1.lines).map DataElement.enteredInput =
      [some py!"new", some py!"foo", some py!"foo"] ∧
    (SegmentGroup.bottomUpList exDeep.lines).map DataElement.enteredInput = [none, some py!"foo", some py!"foo"] := by decide +kernel

/-- a history: the first call counts for `$["A"]`, the last one for `$["B"]` -/
example : (SegmentGroup.bottomUpList (exDeep.edit [.replaceInputs fun _ => ⟨true, some py!"1"⟩, .resetAhbLineIndex,
      .replaceInputs fun d => ⟨d == py!"$[\"B\"]", none⟩]).lines).map DataElement.enteredInput = [some py!"1", some py!"foo", none] := by
  decide +kernel

end Verif
