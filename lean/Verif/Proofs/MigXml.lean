import Verif.Proofs.Qualifiers
import Verif.Proofs.Dict
/-!
# Lemmas about the MIG reader
-/

namespace Verif

/-! ## paths -/

theorem lineage_append (e : Xml) (p q : List Nat) (es : List Xml) : lineage e (p ++ q) = some es ↔
    ∃ es1 es2, lineage e p = some es1 ∧ lineage ((es1.getLast?).getD e) q = some es2 ∧ es = es1 ++ es2 := by
  induction p generalizing e es with
  | nil =>
    simp only [List.nil_append, lineage, Option.some.injEq]
    constructor
    · intro h; exact ⟨[], es, rfl, h, rfl⟩
    · rintro ⟨_, _, rfl, h, rfl⟩; simpa using h
  | cons i p ih =>
    simp only [List.cons_append, lineage]
    cases hc : e.children[i]? with
    | none => simp
    | some c =>
      simp only [Option.map_eq_some_iff, ih]
      constructor
      · rintro ⟨_, ⟨es1, es2, h1, h2, rfl⟩, rfl⟩
        refine ⟨_, es2, ⟨es1, h1, rfl⟩, ?_, rfl⟩
        rw [List.getLast?_cons]
        simpa using h2
      · rintro ⟨_, es2, ⟨es1, h1, rfl⟩, h2, rfl⟩
        rw [List.getLast?_cons] at h2
        exact ⟨_, ⟨es1, es2, h1, by simpa using h2, rfl⟩, rfl⟩

theorem lineage_single (e : Xml) (i : Nat) (es : List Xml) : lineage e [i] = some es ↔ ∃ c, e.children[i]? = some c ∧ es = [c] := by
  simp only [lineage]
  cases e.children[i]? with
  | none => simp
  | some c => simp [eq_comm]

/-- the node is an element of the document, and the elements on the way to it are `es` -/
def XNode.At (root : Xml) (n : XNode) (es : List Xml) : Prop := lineage root n.path = some es ∧ n.elem = (es.getLast?).getD root

theorem XNode.mem_children {n c : XNode} : c ∈ n.children ↔ ∃ i ch, n.elem.children[i]? = some ch ∧ c = ⟨n.path ++ [i], ch⟩ := by
  unfold XNode.children
  rw [List.mem_mapIdx]
  constructor
  · rintro ⟨i, hi, rfl⟩
    exact ⟨i, _, List.getElem?_eq_getElem hi, rfl⟩
  · rintro ⟨i, ch, hc, rfl⟩
    obtain ⟨hi, h⟩ := List.getElem?_eq_some_iff.1 hc
    exact ⟨i, hi, by rw [h]⟩

theorem XNode.getElem?_children {n c : XNode} {i : Nat} :
    n.children[i]? = some c ↔ ∃ ch, n.elem.children[i]? = some ch ∧ c = ⟨n.path ++ [i], ch⟩ := by
  unfold XNode.children
  rw [List.getElem?_mapIdx, Option.map_eq_some_iff]
  simp only [eq_comm]

theorem XStep.eval_sub {s : XStep} {n c : XNode} (h : c ∈ s.eval n) : c ∈ n.children ∧ s.matches c = true := by
  unfold XStep.eval at h
  simp only at h
  split at h
  · exact List.mem_filter.1 h
  · exact List.mem_filter.1 (List.mem_of_mem_drop (List.mem_of_mem_take h))

/-- what a step says about an element -/
def StepOk (s : XStep) (e : Xml) : Prop := e.tag = s.tag ∧ dictGet s.attr e.attrib = some s.value

theorem matches_iff {s : XStep} {n : XNode} : s.matches n = true ↔ StepOk s n.elem := by
  simp [XStep.matches, StepOk]

theorem xpath_snoc (root : Xml) (steps : List XStep) (s : XStep) : xpath root (steps ++ [s]) = (xpath root steps).flatMap s.eval := by
  simp [xpath, List.foldl_append]

theorem xpath_nil (root : Xml) : xpath root [] = [⟨[], root⟩] := rfl

theorem xpath_at (root : Xml) (steps : List XStep) : ∀ n ∈ xpath root steps, ∃ es, n.At root es ∧ List.Forall₂ StepOk steps es := by
  induction steps using List.reverseRecOn with
  | nil =>
    intro n hn
    rw [xpath_nil, List.mem_singleton] at hn
    subst hn
    exact ⟨[], ⟨rfl, rfl⟩, .nil⟩
  | append_singleton steps s ih =>
    intro n hn
    rw [xpath_snoc, List.mem_flatMap] at hn
    obtain ⟨m, hm, hn⟩ := hn
    obtain ⟨es, ⟨h1, h2⟩, h3⟩ := ih m hm
    obtain ⟨h4, h5⟩ := XStep.eval_sub hn
    obtain ⟨i, ch, h6, rfl⟩ := XNode.mem_children.1 h4
    refine ⟨es ++ [ch], ⟨(lineage_append _ _ _ _).2 ⟨es, [ch], h1, ?_, rfl⟩, by simp⟩, ?_⟩
    · rw [← h2]; exact (lineage_single _ _ _).2 ⟨ch, h6, rfl⟩
    · exact List.rel_append h3 (.cons (matches_iff.1 h5) .nil)

/-! ## qualifiers of nodes -/

theorem hasQualifier_true {k : PyStr} {q : Option PyStr} {n : XNode} : hasQualifier k q n = .ok true ↔ Mentions k q n.elem := by
  unfold hasQualifier getNestedQualifiers Mentions
  cases hd : dictGet k n.elem.attrib with
  | none =>
    simp only [bind, Except.bind, pure, Except.pure, Option.getD_none, List.not_mem_nil, decide_false]
    constructor
    · intro h; cases q <;> cases h
    · rintro ⟨_, _, _, _, h, _⟩; cases h
  | some body =>
    simp only
    cases hb : qualifiersOfBody body with
    | error e =>
      simp only [bind, Except.bind]
      constructor
      · intro h; cases h
      · rintro ⟨q', _, qs, _, h, h2, _⟩
        cases h
        rw [← readsAs_iff, hb] at h2
        cases h2
    | ok r =>
      simp only [bind, Except.bind, pure, Except.pure, Except.ok.injEq]
      cases q with
      | none => simp
      | some q =>
        simp only [decide_eq_true_eq]
        constructor
        · intro h
          cases r with
          | none => cases h
          | some qs => exact ⟨q, body, qs, rfl, rfl, (readsAs_iff _ _).1 hb, h⟩
        · rintro ⟨q', _, qs, h1, h2, h3, h4⟩
          cases h1; cases h2
          rw [← readsAs_iff, hb] at h3
          cases h3
          exact h4

theorem hasQualifier_cases (k : PyStr) (q : Option PyStr) (n : XNode) :
    (∃ b, hasQualifier k q n = .ok b) ∨ (hasQualifier k q n = .error .indexError ∧
      ∃ body, dictGet k n.elem.attrib = some body ∧ DanglingPipe body) := by
  unfold hasQualifier getNestedQualifiers
  cases hd : dictGet k n.elem.attrib with
  | none => exact .inl ⟨_, rfl⟩
  | some body =>
    rcases qualifiers_cases body with ⟨h1, h2⟩ | ⟨_, r, h2⟩
    · simp only [h2]; exact .inr ⟨rfl, body, rfl, h1⟩
    · simp only [h2]; exact .inl ⟨_, rfl⟩

/-- no attribute of the candidates ends with a dangling pipe -/
def CleanKeys (k : PyStr) (l : List XNode) : Prop := ∀ n ∈ l, ∀ body, dictGet k n.elem.attrib = some body → ¬ DanglingPipe body

theorem hasQualifier_clean {k : PyStr} {q : Option PyStr} {l : List XNode} (h : CleanKeys k l) {n : XNode} (hn : n ∈ l) :
    ∃ b, hasQualifier k q n = .ok b := by
  rcases hasQualifier_cases k q n with h1 | ⟨_, body, h1, h2⟩
  · exact h1
  · exact absurd h2 (h n hn body h1)

theorem hasQualifier_false {k : PyStr} {q : Option PyStr} {n : XNode} (h : hasQualifier k q n = .ok false) : ¬ Mentions k q n.elem := by
  rw [← hasQualifier_true, h]; intro h; cases h

/-- the first element with the property -/
def FirstAt (l : List XNode) (Q : XNode → Prop) (i : Nat) : Prop :=
  (∃ c, l[i]? = some c ∧ Q c) ∧ ∀ j d, j < i → l[j]? = some d → ¬ Q d

theorem firstAt_cons_pos {x : XNode} {l : List XNode} {Q : XNode → Prop} (h : Q x) : FirstAt (x :: l) Q 0 :=
  ⟨⟨x, rfl, h⟩, fun _ _ h => absurd h (by omega)⟩

theorem firstAt_cons_neg {x : XNode} {l : List XNode} {Q : XNode → Prop} {i : Nat} (h : ¬ Q x) (hi : FirstAt l Q i) :
    FirstAt (x :: l) Q (i + 1) := by
  refine ⟨by simpa using hi.1, ?_⟩
  intro j d hj hd
  cases j with
  | zero => simp at hd; subst hd; exact h
  | succ j => exact hi.2 j d (by omega) (by simpa using hd)

theorem possibleResults_ok (q : Option PyStr) (l : List XNode) (k : Nat) {r : List Nat} (h : possibleResults q k l = .ok r) :
    (r = [] ∧ ∀ n ∈ l, ¬ Mentions py!"key" q n.elem) ∨
      ∃ i r', r = (k + i) :: r' ∧ FirstAt l (fun n => Mentions py!"key" q n.elem) i := by
  induction l generalizing k r with
  | nil => cases h; exact .inl ⟨rfl, by simp⟩
  | cons c cs ih =>
    rw [possibleResults] at h
    cases hb : hasQualifier py!"key" q c with
    | error e => rw [hb] at h; cases h
    | ok b =>
      cases hr : possibleResults q (k + 1) cs with
      | error e => rw [hb, hr] at h; cases h
      | ok r' =>
        rw [hb, hr] at h
        cases h
        cases b with
        | true => exact .inr ⟨0, r', rfl, firstAt_cons_pos (hasQualifier_true.1 hb)⟩
        | false =>
          rcases ih (k + 1) hr with ⟨rfl, h1⟩ | ⟨i, r'', rfl, h1⟩
          · exact .inl ⟨rfl, by simpa using ⟨hasQualifier_false hb, h1⟩⟩
          · refine .inr ⟨i + 1, r'', ?_, firstAt_cons_neg (hasQualifier_false hb) h1⟩
            show (k + 1 + i) :: r'' = _
            rw [show k + 1 + i = k + (i + 1) by omega]

theorem possibleResults_total (q : Option PyStr) (l : List XNode) (k : Nat) :
    (∃ r, possibleResults q k l = .ok r) ∨ (possibleResults q k l = .error .indexError ∧ ¬ CleanKeys py!"key" l) := by
  induction l generalizing k with
  | nil => exact .inl ⟨_, rfl⟩
  | cons c cs ih =>
    rw [possibleResults]
    rcases hasQualifier_cases py!"key" q c with ⟨b, hb⟩ | ⟨hb, body, h1, h2⟩
    · rw [hb]
      rcases ih (k + 1) with ⟨r, hr⟩ | ⟨hr, hc⟩
      · rw [hr]; exact .inl ⟨_, rfl⟩
      · rw [hr]; exact .inr ⟨rfl, fun h => hc fun n hn => h n (by simp [hn])⟩
    · rw [hb]; exact .inr ⟨rfl, fun h => h c (by simp) body h1 h2⟩

theorem candidateIndex_ok {layer : AhbLocationLayer} {l : List XNode} {i : Nat} (h : candidateIndexFromKey layer l = .ok i) :
    FirstAt l (fun n => Mentions py!"key" layer.openingQualifier n.elem) i := by
  unfold candidateIndexFromKey at h
  cases hr : possibleResults layer.openingQualifier 0 l with
  | error e => rw [hr] at h; cases h
  | ok r =>
    rw [hr] at h
    rcases possibleResults_ok _ _ _ hr with ⟨rfl, _⟩ | ⟨j, r', rfl, h1⟩
    · cases h
    · have : j = i := by
        simp only [bind, Except.bind, Nat.zero_add, Except.ok.injEq] at h
        exact h
      subst this
      exact h1

theorem candidateIndex_error {layer : AhbLocationLayer} {l : List XNode} {e : Exc} (h : candidateIndexFromKey layer l = .error e) :
    (e = .valueError ∧ ∀ n ∈ l, ¬ Mentions py!"key" layer.openingQualifier n.elem) ∨ (e = .indexError ∧ ¬ CleanKeys py!"key" l) := by
  unfold candidateIndexFromKey at h
  rcases possibleResults_total layer.openingQualifier l 0 with ⟨r, hr⟩ | ⟨hr, hc⟩
  · rw [hr] at h
    rcases possibleResults_ok _ _ _ hr with ⟨rfl, h1⟩ | ⟨j, r', rfl, h1⟩
    · cases h; exact .inl ⟨rfl, h1⟩
    · cases h
  · rw [hr] at h; cases h; exact .inr ⟨rfl, hc⟩

theorem firstWithKey_cases (q : Option PyStr) (l : List XNode) (k : Nat) :
    (firstWithKey q k l = .ok none ∧ ∀ n ∈ l, ¬ Mentions py!"key" q n.elem) ∨
    (∃ i, firstWithKey q k l = .ok (some (k + i)) ∧ FirstAt l (fun n => Mentions py!"key" q n.elem) i) ∨
    (firstWithKey q k l = .error .indexError ∧ ¬ CleanKeys py!"key" l) := by
  induction l generalizing k with
  | nil => exact .inl ⟨rfl, by simp⟩
  | cons c cs ih =>
    rw [firstWithKey]
    rcases hasQualifier_cases py!"key" q c with ⟨b, hb⟩ | ⟨hb, body, h1, h2⟩
    · rw [hb]
      cases b with
      | true => exact .inr (.inl ⟨0, rfl, firstAt_cons_pos (hasQualifier_true.1 hb)⟩)
      | false =>
        rcases ih (k + 1) with ⟨hr, h⟩ | ⟨i, hr, h⟩ | ⟨hr, h⟩
        · exact .inl ⟨hr, by simpa using ⟨hasQualifier_false hb, h⟩⟩
        · refine .inr (.inl ⟨i + 1, ?_, firstAt_cons_neg (hasQualifier_false hb) h⟩)
          rw [show k + (i + 1) = k + 1 + i by omega]
          exact hr
        · exact .inr (.inr ⟨hr, fun hc => h fun n hn => hc n (by simp [hn])⟩)
    · rw [hb]; exact .inr (.inr ⟨rfl, fun h => h c (by simp) body h1 h2⟩)

/-- the only element with the property -/
def OnlyAt (l : List XNode) (Q : XNode → Prop) (i : Nat) : Prop :=
  (∃ c, l[i]? = some c ∧ Q c) ∧ ∀ j d, l[j]? = some d → Q d → j = i

theorem noFurther_cases (q : Option PyStr) (l : List XNode) (i : Nat) :
    (noFurther q i l = .ok i ∧ ∀ n ∈ l, ¬ Mentions py!"ref" q n.elem) ∨
    (noFurther q i l = .error .valueError ∧ ∃ n ∈ l, Mentions py!"ref" q n.elem) ∨
    (noFurther q i l = .error .indexError ∧ ¬ CleanKeys py!"ref" l) := by
  induction l with
  | nil => exact .inl ⟨rfl, by simp⟩
  | cons c cs ih =>
    rw [noFurther]
    rcases hasQualifier_cases py!"ref" q c with ⟨b, hb⟩ | ⟨hb, body, h1, h2⟩
    · rw [hb]
      cases b with
      | true => exact .inr (.inl ⟨rfl, c, by simp, hasQualifier_true.1 hb⟩)
      | false =>
        rcases ih with ⟨hr, h⟩ | ⟨hr, n, hn, h⟩ | ⟨hr, h⟩
        · exact .inl ⟨hr, by simpa using ⟨hasQualifier_false hb, h⟩⟩
        · exact .inr (.inl ⟨hr, n, by simp [hn], h⟩)
        · exact .inr (.inr ⟨hr, fun hc => h fun n hn => hc n (by simp [hn])⟩)
    · rw [hb]; exact .inr (.inr ⟨rfl, fun h => h c (by simp) body h1 h2⟩)

theorem oneWithRef_cases (q : Option PyStr) (l : List XNode) (k : Nat) :
    (∃ i, oneWithRef q k l = .ok (k + i) ∧ OnlyAt l (fun n => Mentions py!"ref" q n.elem) i) ∨
    (oneWithRef q k l = .error .valueError ∧ ¬ ∃ i, OnlyAt l (fun n => Mentions py!"ref" q n.elem) i) ∨
    (oneWithRef q k l = .error .indexError ∧ ¬ CleanKeys py!"ref" l) := by
  induction l generalizing k with
  | nil => exact .inr (.inl ⟨rfl, by rintro ⟨i, ⟨c, h, _⟩, _⟩; simp at h⟩)
  | cons c cs ih =>
    rw [oneWithRef]
    rcases hasQualifier_cases py!"ref" q c with ⟨b, hb⟩ | ⟨hb, body, h1, h2⟩
    · rw [hb]
      cases b with
      | true =>
        have hc := hasQualifier_true.1 hb
        rcases noFurther_cases q cs k with ⟨hr, h⟩ | ⟨hr, n, hn, h⟩ | ⟨hr, h⟩
        · refine .inl ⟨0, hr, ⟨c, rfl, hc⟩, ?_⟩
          intro j d hj hd
          cases j with
          | zero => rfl
          | succ j =>
            simp only [List.getElem?_cons_succ] at hj
            exact absurd hd (h d (List.mem_of_getElem? hj))
        · refine .inr (.inl ⟨hr, ?_⟩)
          rintro ⟨i, _, h2⟩
          obtain ⟨j, hj⟩ := List.mem_iff_getElem?.1 hn
          have e1 := h2 0 c rfl hc
          have e2 := h2 (j + 1) n (by simpa using hj) h
          omega
        · exact .inr (.inr ⟨hr, fun hc => h fun n hn => hc n (by simp [hn])⟩)
      | false =>
        have hc := hasQualifier_false hb
        have hiff : ∀ i, OnlyAt (c :: cs) (fun n => Mentions py!"ref" q n.elem) (i + 1) ↔
            OnlyAt cs (fun n => Mentions py!"ref" q n.elem) i := by
          intro i
          unfold OnlyAt
          simp only [List.getElem?_cons_succ]
          refine and_congr_right fun _ => ⟨?_, ?_⟩
          · intro h j d hj hd
            have := h (j + 1) d (by simpa using hj) hd
            omega
          · intro h j d hj hd
            cases j with
            | zero =>
              simp only [List.getElem?_cons_zero, Option.some.injEq] at hj
              subst hj
              exact absurd hd hc
            | succ j => rw [h j d (by simpa using hj) hd]
        rcases ih (k + 1) with ⟨i, hr, h⟩ | ⟨hr, h⟩ | ⟨hr, h⟩
        · refine .inl ⟨i + 1, ?_, (hiff i).2 h⟩
          rw [show k + (i + 1) = k + 1 + i by omega]
          exact hr
        · refine .inr (.inl ⟨hr, ?_⟩)
          rintro ⟨i, hi⟩
          cases i with
          | zero =>
            obtain ⟨⟨d, h1, h2⟩, _⟩ := hi
            simp only [List.getElem?_cons_zero, Option.some.injEq] at h1
            subst h1
            exact hc h2
          | succ i => exact h ⟨i, (hiff i).1 hi⟩
        · exact .inr (.inr ⟨hr, fun hc => h fun n hn => hc n (by simp [hn])⟩)
    · rw [hb]; exact .inr (.inr ⟨rfl, fun h => h c (by simp) body h1 h2⟩)

/-! ## the elements on the way -/

theorem layerRef_eq (l : AhbLocationLayer) : layerRef l = l.ref := by
  unfold layerRef AhbLocationLayer.ref
  rcases l.segmentGroupKey with _ | _ | ⟨c, s⟩ <;> rfl

theorem stepOk_class {ref : PyStr} {p : Option Nat} {e : Xml} : StepOk (classStep ref p) e ↔ IsClass ref e := Iff.rfl

/-- the steps belong to the layers -/
def StepsOf (steps : List XStep) (layers : List AhbLocationLayer) : Prop :=
  List.Forall₂ (fun s l => ∃ p, s = classStep (layerRef l) p) steps layers

theorem layerLoop_ok (root : Xml) (layers : List AhbLocationLayer) (final : List XStep) (cands : List XNode)
    {final' : List XStep} {cands' : List XNode} (h : layerLoop root final cands layers = .ok (final', cands')) :
    (∃ steps, final' = final ++ steps ∧ StepsOf steps layers) ∧
      (layers ≠ [] → ∀ n ∈ cands', ∃ steps, StepsOf steps layers ∧ n ∈ xpath root (final ++ steps)) := by
  induction layers generalizing final cands with
  | nil => cases h; exact ⟨⟨[], by simp, .nil⟩, by simp⟩
  | cons layer layers ih =>
    rw [layerLoop] at h
    have key : ∀ p c, layerLoop root (final ++ [classStep (layerRef layer) p]) c layers = .ok (final', cands') →
        (∀ n ∈ c, n ∈ xpath root (final ++ [classStep (layerRef layer)])) →
        (∃ steps, final' = final ++ steps ∧ StepsOf steps (layer :: layers)) ∧
          (layer :: layers ≠ [] → ∀ n ∈ cands', ∃ steps, StepsOf steps (layer :: layers) ∧ n ∈ xpath root (final ++ steps)) := by
      intro p c h hc
      obtain ⟨⟨steps, h1, h2⟩, h3⟩ := ih _ _ h
      refine ⟨⟨classStep (layerRef layer) p :: steps, by rw [h1]; simp, .cons ⟨p, rfl⟩ h2⟩, ?_⟩
      intro _ n hn
      by_cases hl : layers = []
      · subst hl
        cases h
        exact ⟨[classStep (layerRef layer)], .cons ⟨none, rfl⟩ .nil, hc n hn⟩
      · obtain ⟨steps, h4, h5⟩ := h3 hl n hn
        exact ⟨classStep (layerRef layer) p :: steps, .cons ⟨p, rfl⟩ h4, by simpa using h5⟩
    split at h
    · cases h
    · split at h
      · cases hi : candidateIndexFromKey layer (xpath root (final ++ [classStep (layerRef layer)])) with
        | error e => rw [hi] at h; cases h
        | ok i =>
          rw [hi] at h
          exact key _ _ h (fun n hn => List.mem_of_mem_drop (List.mem_of_mem_take hn))
      · exact key none _ h (fun n hn => hn)

theorem layerLoop_error (root : Xml) (layers : List AhbLocationLayer) (final : List XStep) (cands : List XNode) {e : Exc}
    (h : layerLoop root final cands layers = .error e) :
    e = .valueError ∨ (e = .indexError ∧ ∃ steps, ¬ CleanKeys py!"key" (xpath root (final ++ steps)) ∧ steps ≠ []) := by
  induction layers generalizing final cands with
  | nil => cases h
  | cons layer layers ih =>
    rw [layerLoop] at h
    have key : ∀ p c, layerLoop root (final ++ [classStep (layerRef layer) p]) c layers = .error e →
        e = .valueError ∨ (e = .indexError ∧ ∃ steps, ¬ CleanKeys py!"key" (xpath root (final ++ steps)) ∧ steps ≠ []) := by
      intro p c h
      rcases ih _ _ h with h | ⟨h, steps, h2, _⟩
      · exact .inl h
      · exact .inr ⟨h, classStep (layerRef layer) p :: steps, by simpa using h2, by simp⟩
    split at h
    · cases h; exact .inl rfl
    · split at h
      · cases hi : candidateIndexFromKey layer (xpath root (final ++ [classStep (layerRef layer)])) with
        | error e' =>
          rw [hi] at h
          cases h
          rcases candidateIndex_error hi with ⟨h, _⟩ | ⟨h, hc⟩
          · exact .inl h
          · exact .inr ⟨h, [_], hc, by simp⟩
        | ok i => rw [hi] at h; exact key _ _ h
      · exact key none _ h

/-- the result of the segment step -/
theorem migSegmentStep_ok {root : Xml} {code : Option PyStr} {layer : Option AhbLocationLayer} {final : List XStep} {cands : List XNode}
    {final' : List XStep} {cands' : List XNode} (h : migSegmentStep root code layer final cands = .ok (final', cands')) :
    (final' = final ∧ cands' = cands) ∨
    ∃ c p, code = some c ∧ c ≠ py!"UNH" ∧ final' = final ++ [classStep c p] ∧ (cands' = cands ∨ 1 < cands'.length) := by
  unfold migSegmentStep at h
  cases code with
  | none => cases h; exact .inl ⟨rfl, rfl⟩
  | some c =>
    simp only at h
    split at h
    · cases h; exact .inl ⟨rfl, rfl⟩
    · rename_i hc
      split at h
      · rename_i hl
        cases layer with
        | none => cases h
        | some layer =>
          simp only at h
          cases hi : firstWithKey layer.openingQualifier 0 (xpath root (final ++ [classStep c])) with
          | error e => rw [hi] at h; cases h
          | ok i =>
            rw [hi] at h
            cases i with
            | none => cases h; exact .inl ⟨rfl, rfl⟩
            | some i => cases h; exact .inr ⟨c, _, rfl, hc, rfl, .inr hl⟩
      · split at h
        · cases h; exact .inr ⟨c, none, rfl, hc, rfl, .inl rfl⟩
        · cases h; exact .inl ⟨rfl, rfl⟩

theorem migSegmentStep_error {root : Xml} {code : Option PyStr} {layer : AhbLocationLayer} {final : List XStep} {cands : List XNode}
    {e : Exc} (h : migSegmentStep root code (some layer) final cands = .error e) :
    e = .indexError ∧ ∃ steps, ¬ CleanKeys py!"key" (xpath root (final ++ steps)) ∧ steps ≠ [] := by
  unfold migSegmentStep at h
  cases code with
  | none => cases h
  | some c =>
    simp only at h
    split at h
    · cases h
    · split at h
      · rcases firstWithKey_cases layer.openingQualifier (xpath root (final ++ [classStep c])) 0 with ⟨hi, _⟩ | ⟨i, hi, _⟩ | ⟨hi, hc⟩
        · rw [hi] at h; cases h
        · rw [hi] at h; cases h
        · rw [hi] at h; cases h; exact ⟨rfl, _, hc, by simp⟩
      · split at h <;> cases h

/-- `field[@meta.id='...']` -/
def fieldXStep (d : PyStr) : XStep := { tag := py!"field", attr := py!"meta.id", value := d }

theorem fieldStep_mem {root : Xml} {d : PyStr} {q : Option PyStr} {final : List XStep} {cands r : List XNode}
    (h : fieldStep root (some d) q final cands = .ok r) : ∀ n ∈ r, n ∈ xpath root (final ++ [fieldXStep d]) := by
  unfold fieldStep at h
  simp only at h
  split at h
  · cases h
  · split at h
    · cases q with
      | none => cases h
      | some q =>
        simp only at h
        cases hi : oneWithRef (some q) 0 (xpath root (final ++ [{ tag := py!"field", attr := py!"meta.id", value := d }])) with
        | error e => rw [hi] at h; cases h
        | ok i =>
          rw [hi] at h
          cases h
          exact fun n hn => List.mem_of_mem_drop (List.mem_of_mem_take hn)
    · cases h; exact fun n hn => hn

theorem fieldStep_error {root : Xml} {d q : Option PyStr} {final : List XStep} {cands : List XNode} {e : Exc}
    (h : fieldStep root d q final cands = .error e) :
    e = .valueError ∨ (e = .indexError ∧ ∃ steps, ¬ CleanKeys py!"ref" (xpath root (final ++ steps)) ∧ steps ≠ []) := by
  unfold fieldStep at h
  cases d with
  | none => cases h
  | some d =>
    simp only at h
    split at h
    · cases h; exact .inl rfl
    · split at h
      · cases q with
        | none => cases h; exact .inl rfl
        | some q =>
          simp only at h
          rcases oneWithRef_cases (some q) (xpath root (final ++ [{ tag := py!"field", attr := py!"meta.id", value := d }])) 0 with
            ⟨i, hi, _⟩ | ⟨hi, _⟩ | ⟨hi, hc⟩
          · rw [hi] at h; cases h
          · rw [hi] at h; cases h; exact .inl rfl
          · rw [hi] at h; cases h; exact .inr ⟨rfl, _, hc, by simp⟩
      · cases h

theorem pyOne_ok {α : Type} {l : List α} {x : α} (h : pyOne l = .ok x) : l = [x] := by
  unfold pyOne at h
  split at h
  · cases h; rfl
  · cases h

theorem pyOne_error {α : Type} {l : List α} {e : Exc} (h : pyOne l = .error e) : e = .valueError ∧ l.length ≠ 1 := by
  unfold pyOne at h
  split at h
  · cases h
  · rename_i h'
    cases h
    refine ⟨rfl, fun hl => ?_⟩
    obtain ⟨x, rfl⟩ := List.length_eq_one_iff.1 hl
    exact h' x rfl

/-- the parts of a successful lookup -/
theorem getElement_parts {root : Xml} {loc : AhbLocation} {n : XNode} (h : getElement root loc = .ok n) :
    loc.layers ≠ [] ∧ ∃ final cands final' cands' r, layerLoop root [classStep py!"/"] [] loc.layers = .ok (final, cands) ∧
      migSegmentStep root loc.segmentCode loc.layers.getLast? final cands = .ok (final', cands') ∧
      fieldStep root loc.dataElementId loc.qualifier final' cands' = .ok r ∧ r = [n] := by
  unfold getElement at h
  cases hl : loc.layers with
  | nil => rw [hl] at h; cases h
  | cons l ls =>
    rw [hl] at h
    simp only at h
    refine ⟨by simp, ?_⟩
    by_cases hns : '{' ∈ root.tag
    · rw [if_pos hns] at h; cases h
    rw [if_neg hns] at h
    cases h1 : layerLoop root [classStep py!"/"] [] (l :: ls) with
    | error e => rw [h1] at h; cases h
    | ok p =>
      obtain ⟨final, cands⟩ := p
      rw [h1] at h
      simp only [bind, Except.bind] at h
      cases h2 : migSegmentStep root loc.segmentCode (l :: ls).getLast? final cands with
      | error e => rw [h2] at h; cases h
      | ok p =>
        obtain ⟨final', cands'⟩ := p
        rw [h2] at h
        simp only at h
        cases h3 : fieldStep root loc.dataElementId loc.qualifier final' cands' with
        | error e => rw [h3] at h; cases h
        | ok r =>
          rw [h3] at h
          exact ⟨final, cands, final', cands', r, rfl, h2, h3, pyOne_ok h⟩

theorem getElement_of_parts {root : Xml} (hns : InNoNamespace root) {loc : AhbLocation} (hne : loc.layers ≠ []) {final final' : List XStep}
    {cands cands' r : List XNode} (h1 : layerLoop root [classStep py!"/"] [] loc.layers = .ok (final, cands))
    (h2 : migSegmentStep root loc.segmentCode loc.layers.getLast? final cands = .ok (final', cands'))
    (h3 : fieldStep root loc.dataElementId loc.qualifier final' cands' = .ok r) : getElement root loc = pyOne r := by
  unfold getElement
  cases hl : loc.layers with
  | nil => exact absurd hl hne
  | cons l ls =>
    rw [hl] at h1 h2
    simp only [h1, h2, h3, bind, Except.bind]
    exact if_neg hns

theorem stepsOf_classes {steps : List XStep} {layers : List AhbLocationLayer} {es : List Xml} (h : StepsOf steps layers)
    (he : List.Forall₂ StepOk steps es) : List.Forall₂ (fun (l : AhbLocationLayer) e => IsClass l.ref e) layers es := by
  induction h generalizing es with
  | nil => cases he; exact .nil
  | cons h1 _ ih =>
    cases he with
    | cons h2 h3 =>
      obtain ⟨p, rfl⟩ := h1
      rw [stepOk_class, layerRef_eq] at h2
      exact .cons h2 (ih h3)

theorem forall₂_snoc {α β : Type} {R : α → β → Prop} {l : List α} {x : α} {m : List β} (h : List.Forall₂ R (l ++ [x]) m) :
    ∃ m' y, m = m' ++ [y] ∧ List.Forall₂ R l m' ∧ R x y := by
  induction l generalizing m with
  | nil =>
    cases h with
    | cons h1 h2 => cases h2; exact ⟨[], _, rfl, .nil, h1⟩
  | cons a l ih =>
    cases h with
    | cons h1 h2 =>
      obtain ⟨m', y, rfl, h3, h4⟩ := ih h2
      exact ⟨_ :: m', y, rfl, .cons h1 h3, h4⟩

theorem getElement_lineage {root : Xml} {loc : AhbLocation} {n : XNode} (h : getElement root loc = .ok n) :
    ∃ msg classes tail, lineage root n.path = some (msg :: classes ++ tail) ∧ (msg :: classes ++ tail).getLast? = some n.elem ∧
      IsClass py!"/" msg ∧ List.Forall₂ (fun (l : AhbLocationLayer) e => IsClass l.ref e) loc.layers classes ∧
      (loc.dataElementId = none → tail = []) ∧
      ∀ d, loc.dataElementId = some d → ∃ seg field, tail = seg ++ [field] ∧ IsField d field ∧
        (seg = [] ∨ ∃ s code, seg = [s] ∧ loc.segmentCode = some code ∧ code ≠ py!"UNH" ∧ IsClass code s) := by
  obtain ⟨hne, final, cands, final', cands', r, h1, h2, h3, rfl⟩ := getElement_parts h
  obtain ⟨⟨steps, rfl, hsteps⟩, hc⟩ := layerLoop_ok _ _ _ _ h1
  cases hd : loc.dataElementId with
  | none =>
    have hn : n ∈ cands := by
      rw [hd] at h3
      have h3 : cands' = [n] := by simpa [fieldStep] using h3
      subst h3
      rcases migSegmentStep_ok h2 with ⟨_, h⟩ | ⟨_, _, _, _, _, h | h⟩
      · rw [← h]; simp
      · rw [← h]; simp
      · simp at h
    obtain ⟨steps', hs', hn⟩ := hc hne n hn
    obtain ⟨es, ⟨ha, hb⟩, hf⟩ := xpath_at _ _ _ hn
    cases hf with
    | @cons _ msg _ classes hm hcl =>
      refine ⟨msg, classes, [], by simpa using ha, ?_, hm, stepsOf_classes hs' hcl, fun _ => rfl, fun d hd => by cases hd⟩
      rw [hb, List.append_nil]
      rw [List.getLast?_eq_some_getLast (List.cons_ne_nil _ _)]; rfl
  | some d =>
    rw [hd] at h3
    have hn := fieldStep_mem h3 n (by simp)
    obtain ⟨es, ⟨ha, hb⟩, hf⟩ := xpath_at _ _ _ hn
    obtain ⟨es, field, rfl, hf, hfield⟩ := forall₂_snoc hf
    have hlast : n.elem = field := by rw [hb]; simp
    rcases migSegmentStep_ok h2 with ⟨rfl, _⟩ | ⟨code, p, hcode, hU, rfl, _⟩
    · cases hf with
      | @cons _ msg _ classes hm hcl =>
        refine ⟨msg, classes, [field], ha, ?_, hm, stepsOf_classes hsteps hcl, fun h => (by cases h), ?_⟩
        · rw [hlast, List.getLast?_append]; rfl
        · intro d' h'; cases h'; exact ⟨[], field, rfl, hfield, .inl rfl⟩
    · obtain ⟨es, seg, rfl, hf, hseg⟩ := forall₂_snoc hf
      cases hf with
      | @cons _ msg _ classes hm hcl =>
        refine ⟨msg, classes, [seg, field], by simpa using ha, ?_, hm, stepsOf_classes hsteps hcl, fun h => (by cases h), ?_⟩
        · rw [hlast, List.getLast?_append]; rfl
        · intro d' h'; cases h'
          exact ⟨[seg], field, rfl, hfield, .inr ⟨seg, code, rfl, hcode, hU, hseg⟩⟩

/-! ## errors -/

theorem getElement_error {root : Xml} {loc : AhbLocation} (hne : loc.layers ≠ []) {e : Exc} (h : getElement root loc = .error e) :
    (e = .other ∧ ¬ InNoNamespace root) ∨ (InNoNamespace root ∧ (e = .valueError ∨ (e = .indexError ∧ ∃ steps, steps ≠ [] ∧
      (¬ CleanKeys py!"key" (xpath root steps) ∨ ¬ CleanKeys py!"ref" (xpath root steps))))) := by
  unfold getElement at h
  cases hl : loc.layers with
  | nil => exact absurd hl hne
  | cons l ls =>
    rw [hl] at h
    simp only at h
    by_cases hns : '{' ∈ root.tag
    · rw [if_pos hns] at h; cases h; exact .inl ⟨rfl, fun h => h hns⟩
    rw [if_neg hns] at h
    refine .inr ⟨hns, ?_⟩
    cases h1 : layerLoop root [classStep py!"/"] [] (l :: ls) with
    | error e' =>
      rw [h1] at h; cases h
      rcases layerLoop_error _ _ _ _ h1 with h | ⟨h, steps, hc, hs⟩
      · exact .inl h
      · exact .inr ⟨h, _, by simp, .inl hc⟩
    | ok p =>
      obtain ⟨final, cands⟩ := p
      rw [h1] at h
      simp only [bind, Except.bind] at h
      have hlast : ∃ x, (l :: ls).getLast? = some x := ⟨_, List.getLast?_eq_some_getLast (List.cons_ne_nil _ _)⟩
      obtain ⟨x, hx⟩ := hlast
      rw [hx] at h
      cases h2 : migSegmentStep root loc.segmentCode (some x) final cands with
      | error e' =>
        rw [h2] at h; cases h
        obtain ⟨h, steps, hc, hs⟩ := migSegmentStep_error h2
        exact .inr ⟨h, _, by simp [hs], .inl hc⟩
      | ok p =>
        obtain ⟨final', cands'⟩ := p
        rw [h2] at h
        simp only at h
        cases h3 : fieldStep root loc.dataElementId loc.qualifier final' cands' with
        | error e' =>
          rw [h3] at h; cases h
          rcases fieldStep_error h3 with h | ⟨h, steps, hc, hs⟩
          · exact .inl h
          · exact .inr ⟨h, _, by simp [hs], .inr hc⟩
        | ok r => rw [h3] at h; exact .inl (pyOne_error h).1

theorem good_clean {root : Xml} (hg : GoodQualifiers root) {k : PyStr} (hk : k = py!"key" ∨ k = py!"ref") {steps : List XStep}
    (hs : steps ≠ []) : CleanKeys k (xpath root steps) := by
  intro n hn body hb
  obtain ⟨es, ⟨h1, h2⟩, h3⟩ := xpath_at _ _ _ hn
  have hne : es ≠ [] := by rintro rfl; cases h3; exact hs rfl
  refine hg n.path es n.elem k body h1 ?_ hk hb
  rw [h2, List.getLast?_eq_some_getLast hne]
  exact List.getLast_mem hne

/-! ## the walk -/

theorem filter_first {P : XNode → Bool} {Q : XNode → Prop} (l : List XNode) {i : Nat} (h : FirstAt (l.filter P) Q i) :
    ∃ (k : Nat) (c : XNode), l[k]? = some c ∧ (l.filter P)[i]? = some c ∧ P c = true ∧ Q c ∧ ∀ j d, j < k → l[j]? = some d → P d = true → ¬ Q d := by
  induction l generalizing i with
  | nil => obtain ⟨⟨c, h, _⟩, _⟩ := h; simp at h
  | cons x l ih =>
    by_cases hx : P x = true
    · rw [List.filter_cons_of_pos hx] at h ⊢
      cases i with
      | zero =>
        obtain ⟨⟨c, h1, h2⟩, _⟩ := h
        simp only [List.getElem?_cons_zero, Option.some.injEq] at h1
        subst h1
        exact ⟨0, x, rfl, rfl, hx, h2, fun j d hj => absurd hj (by omega)⟩
      | succ i =>
        have h0 : ¬ Q x := h.2 0 x (by omega) rfl
        have h' : FirstAt (l.filter P) Q i :=
          ⟨by simpa using h.1, fun j d hj hd => h.2 (j + 1) d (by omega) (by simpa using hd)⟩
        obtain ⟨k, c, h1, h2, h3, h4, h5⟩ := ih h'
        refine ⟨k + 1, c, by simpa using h1, by simpa using h2, h3, h4, ?_⟩
        intro j d hj hd hp
        cases j with
        | zero => simp at hd; subst hd; exact h0
        | succ j => exact h5 j d (by omega) (by simpa using hd) hp
    · rw [List.filter_cons_of_neg hx] at h ⊢
      obtain ⟨k, c, h1, h2, h3, h4, h5⟩ := ih h
      refine ⟨k + 1, c, by simpa using h1, h2, h3, h4, ?_⟩
      intro j d hj hd hp
      cases j with
      | zero => simp at hd; subst hd; exact absurd hp hx
      | succ j => exact h5 j d (by omega) (by simpa using hd) hp

theorem filter_onlyAt {P : XNode → Bool} {Q : XNode → Prop} (l : List XNode) {i : Nat} (h : OnlyAt (l.filter P) Q i) :
    ∃ (k : Nat) (c : XNode), l[k]? = some c ∧ (l.filter P)[i]? = some c ∧ P c = true ∧ Q c ∧ ∀ j d, l[j]? = some d → P d = true → Q d → j = k := by
  induction l generalizing i with
  | nil => obtain ⟨⟨c, h, _⟩, _⟩ := h; simp at h
  | cons x l ih =>
    by_cases hx : P x = true
    · rw [List.filter_cons_of_pos hx] at h ⊢
      cases i with
      | zero =>
        obtain ⟨⟨c, h1, h2⟩, h3⟩ := h
        simp only [List.getElem?_cons_zero, Option.some.injEq] at h1
        subst h1
        refine ⟨0, x, rfl, rfl, hx, h2, ?_⟩
        intro j d hj hp hq
        cases j with
        | zero => rfl
        | succ j =>
          have : d ∈ l.filter P := List.mem_filter.2 ⟨List.mem_of_getElem? (by simpa using hj), hp⟩
          obtain ⟨m, hm⟩ := List.mem_iff_getElem?.1 this
          have := h3 (m + 1) d (by simpa using hm) hq
          omega
      | succ i =>
        have h0 : ¬ Q x := fun hq => by have := h.2 0 x rfl hq; omega
        have h' : OnlyAt (l.filter P) Q i :=
          ⟨by simpa using h.1, fun j d hj hd => by have := h.2 (j + 1) d (by simpa using hj) hd; omega⟩
        obtain ⟨k, c, h1, h2, h3, h4, h5⟩ := ih h'
        refine ⟨k + 1, c, by simpa using h1, by simpa using h2, h3, h4, ?_⟩
        intro j d hd hp hq
        cases j with
        | zero => simp at hd; subst hd; exact absurd hq h0
        | succ j => rw [h5 j d (by simpa using hd) hp hq]
    · rw [List.filter_cons_of_neg hx] at h ⊢
      obtain ⟨k, c, h1, h2, h3, h4, h5⟩ := ih h
      refine ⟨k + 1, c, by simpa using h1, h2, h3, h4, ?_⟩
      intro j d hd hp hq
      cases j with
      | zero => simp at hd; subst hd; exact absurd hp hx
      | succ j => rw [h5 j d (by simpa using hd) hp hq]

theorem filter_one {P : XNode → Bool} (l : List XNode) {c : XNode} (h : l.filter P = [c]) :
    ∃ k : Nat, l[k]? = some c ∧ P c = true ∧ ∀ j d, l[j]? = some d → P d = true → j = k := by
  have : OnlyAt (l.filter P) (fun _ => True) 0 := by
    rw [h]
    refine ⟨⟨c, rfl, trivial⟩, ?_⟩
    intro j d hj _
    cases j with
    | zero => rfl
    | succ j => simp at hj
  obtain ⟨k, c', h1, h2, h3, _, h5⟩ := filter_onlyAt l this
  rw [h] at h2
  simp only [List.getElem?_cons_zero, Option.some.injEq] at h2
  subst h2
  exact ⟨k, h1, h3, fun j d hj hp => h5 j d hj hp trivial⟩

theorem filter_many {P : XNode → Bool} (l : List XNode) (h : 1 < (l.filter P).length) (k : Nat) :
    ∃ j d, j ≠ k ∧ l[j]? = some d ∧ P d = true := by
  by_contra hcon
  have hall : ∀ j d, l[j]? = some d → P d = true → j = k := by
    intro j d hj hp
    by_contra hne
    exact hcon ⟨j, d, hne, hj, hp⟩
  clear hcon
  induction l generalizing k with
  | nil => simp at h
  | cons x l ih =>
    by_cases hx : P x = true
    · have hk : 0 = k := hall 0 x rfl hx
      have : l.filter P = [] := by
        rw [List.filter_eq_nil_iff]
        intro d hd hp
        obtain ⟨j, hj⟩ := List.mem_iff_getElem?.1 hd
        have := hall (j + 1) d (by simpa using hj) hp
        omega
      rw [List.filter_cons_of_pos hx, this] at h
      simp at h
    · rw [List.filter_cons_of_neg hx] at h
      refine ih h (k - 1) ?_
      intro j d hj hp
      have := hall (j + 1) d (by simpa using hj) hp
      omega

/-- the children of a node that match a step, seen from the element -/
theorem children_lookup {n c : XNode} {k : Nat} (h : n.children[k]? = some c) :
    n.elem.children[k]? = some c.elem ∧ c.path = n.path ++ [k] := by
  obtain ⟨ch, h1, rfl⟩ := XNode.getElem?_children.1 h
  exact ⟨h1, rfl⟩

theorem lookup_children {n : XNode} {k : Nat} {d : Xml} (h : n.elem.children[k]? = some d) :
    n.children[k]? = some ⟨n.path ++ [k], d⟩ := XNode.getElem?_children.2 ⟨d, h, rfl⟩

theorem onlyChild_of {s : XStep} {n c : XNode} (h : n.children.filter s.matches = [c]) :
    ∃ k, c = ⟨n.path ++ [k], c.elem⟩ ∧ n.elem.children[k]? = some c.elem ∧ OnlyChild (StepOk s) n.elem k := by
  obtain ⟨k, h1, h2, h3⟩ := filter_one _ h
  obtain ⟨h4, h5⟩ := children_lookup h1
  refine ⟨k, by rw [← h5], h4, ⟨c.elem, h4, matches_iff.1 h2⟩, ?_⟩
  intro j d hj hd
  exact h3 j ⟨n.path ++ [j], d⟩ (lookup_children hj) (matches_iff.2 hd)

theorem firstOfMany_of {s : XStep} {n : XNode} {k : PyStr} {q : Option PyStr} {i : Nat}
    (hl : 1 < (n.children.filter s.matches).length)
    (h : FirstAt (n.children.filter s.matches) (fun n => Mentions k q n.elem) i) :
    ∃ c j, (n.children.filter s.matches)[i]? = some c ∧ c = ⟨n.path ++ [j], c.elem⟩ ∧ n.elem.children[j]? = some c.elem ∧
      FirstOfMany (StepOk s) (Mentions k q) n.elem j := by
  obtain ⟨j, c, h1, h2, h3, h4, h5⟩ := filter_first _ h
  obtain ⟨h6, h7⟩ := children_lookup h1
  refine ⟨c, j, h2, by rw [← h7], h6, ⟨c.elem, h6, matches_iff.1 h3, h4⟩, ?_, ?_⟩
  · intro m d hm hd hp
    exact h5 m ⟨n.path ++ [m], d⟩ hm (lookup_children hd) (matches_iff.2 hp)
  · obtain ⟨m, d, hm, hd, hp⟩ := filter_many _ hl j
    exact ⟨m, d.elem, hm, (children_lookup hd).1, matches_iff.1 hp⟩

theorem take_drop_getElem? {α : Type} {l : List α} {i : Nat} {c : α} (h : l[i]? = some c) : (l.drop i).take 1 = [c] := by
  obtain ⟨hi, rfl⟩ := List.getElem?_eq_some_iff.1 h
  rw [List.drop_eq_getElem_cons hi]
  rfl

/-- the path denotes exactly this node -/
def Denotes (root : Xml) (final : List XStep) (n : XNode) : Prop := xpath root final = [n]

theorem denotes_query {root : Xml} {final : List XStep} {n : XNode} (h : Denotes root final n) (s : XStep) :
    xpath root (final ++ [s]) = s.eval n := by rw [xpath_snoc, h]; simp

theorem eval_all {s : XStep} (hs : s.position = none) (n : XNode) : s.eval n = n.children.filter s.matches := by
  simp [XStep.eval, hs]

theorem eval_position {s : XStep} {i : Nat} (n : XNode) {c : XNode} (h : (n.children.filter s.matches)[i]? = some c)
    (hs : s.position = some (i + 1)) : s.eval n = [c] := by
  simp only [XStep.eval, hs, Nat.add_sub_cancel]
  exact take_drop_getElem? h

theorem onlyChild_unique {P : Xml → Prop} {e : Xml} {i j : Nat} (h : OnlyChild P e i) (h' : OnlyChild P e j) : i = j := by
  obtain ⟨⟨c, h1, h2⟩, _⟩ := h
  exact h'.2 i c h1 h2

theorem onlyChild_not_many {P Q : Xml → Prop} {e : Xml} {i j : Nat} (h : OnlyChild P e i) (h' : FirstOfMany P Q e j) : False := by
  obtain ⟨⟨c, h1, h2, _⟩, _, k, d, h3, h4, h5⟩ := h'
  have e1 := h.2 j c h1 h2
  have e2 := h.2 k d h4 h5
  omega

theorem firstOfMany_unique {P Q : Xml → Prop} {e : Xml} {i j : Nat} (h : FirstOfMany P Q e i) (h' : FirstOfMany P Q e j) : i = j := by
  obtain ⟨⟨c, h1, h2, h3⟩, h4, _⟩ := h
  obtain ⟨⟨c', h1', h2', h3'⟩, h4', _⟩ := h'
  rcases Nat.lt_trichotomy i j with hlt | heq | hlt
  · exact absurd h3 (h4' i c hlt h1 h2)
  · exact heq
  · exact absurd h3' (h4 j c' hlt h1' h2')

/-- what the class lookups choose -/
def Chosen (ref : PyStr) (q : Option PyStr) (e : Xml) (i : Nat) : Prop :=
  OnlyChild (IsClass ref) e i ∨ FirstOfMany (IsClass ref) (Mentions py!"key" q) e i

theorem chosen_unique {ref : PyStr} {q : Option PyStr} {e : Xml} {i j : Nat} (h : Chosen ref q e i) (h' : Chosen ref q e j) : i = j := by
  rcases h with h | h <;> rcases h' with h' | h'
  · exact onlyChild_unique h h'
  · exact (onlyChild_not_many h h').elim
  · exact (onlyChild_not_many h' h).elim
  · exact firstOfMany_unique h h'

/-- if a child is to be chosen there are candidates; only one if it is the only child -/
theorem onlyChild_filter {s : XStep} {n : XNode} {i : Nat} (h : OnlyChild (StepOk s) n.elem i) : (n.children.filter s.matches).length = 1 := by
  obtain ⟨⟨c, h1, h2⟩, h3⟩ := h
  have hmem : (⟨n.path ++ [i], c⟩ : XNode) ∈ n.children.filter s.matches :=
    List.mem_filter.2 ⟨List.mem_of_getElem? (lookup_children h1), matches_iff.2 h2⟩
  have hpos : 0 < (n.children.filter s.matches).length := List.length_pos_of_mem hmem
  by_contra hne
  obtain ⟨j, d, hj, hd, hp⟩ := filter_many (P := s.matches) n.children (by omega) i
  exact hj (h3 j d.elem (children_lookup hd).1 (matches_iff.1 hp))

theorem firstOfMany_filter {s : XStep} {k : PyStr} {q : Option PyStr} {n : XNode} {i : Nat}
    (h : FirstOfMany (StepOk s) (Mentions k q) n.elem i) :
    1 < (n.children.filter s.matches).length ∧ ∃ c ∈ n.children.filter s.matches, Mentions k q c.elem := by
  obtain ⟨⟨c, h1, h2, h3⟩, _, j, d, hj, hd, hp⟩ := id h
  have hmem : (⟨n.path ++ [i], c⟩ : XNode) ∈ n.children.filter s.matches :=
    List.mem_filter.2 ⟨List.mem_of_getElem? (lookup_children h1), matches_iff.2 h2⟩
  refine ⟨?_, _, hmem, h3⟩
  have hpos : 0 < (n.children.filter s.matches).length := List.length_pos_of_mem hmem
  by_contra hne
  obtain ⟨x, hx⟩ := List.length_eq_one_iff.1 (by omega : (n.children.filter s.matches).length = 1)
  obtain ⟨k', _, _, ho⟩ := onlyChild_of hx
  exact onlyChild_not_many ho h

theorem layerLoop_walk (root : Xml) (layers : List AhbLocationLayer) (final : List XStep) (n : XNode) (hn : Denotes root final n)
    (cands : List XNode) {final' : List XStep} {cands' : List XNode}
    (h : layerLoop root final cands layers = .ok (final', cands')) :
    ∃ n', Denotes root final' n' ∧ (layers ≠ [] → cands' = [n']) ∧ ∃ path, n'.path = n.path ++ path ∧ LayerWalk n.elem layers path n'.elem := by
  induction layers generalizing final cands n with
  | nil => cases h; exact ⟨n, hn, by simp, [], by simp, .nil _⟩
  | cons layer layers ih =>
    rw [layerLoop] at h
    simp only [denotes_query hn, eval_all (s := classStep (layerRef layer)) rfl] at h
    have key : ∀ p c j, Denotes root (final ++ [classStep (layerRef layer) p]) c →
        c = ⟨n.path ++ [j], c.elem⟩ → n.elem.children[j]? = some c.elem → Chosen layer.ref layer.openingQualifier n.elem j →
        layerLoop root (final ++ [classStep (layerRef layer) p]) [c] layers = .ok (final', cands') →
        ∃ n', Denotes root final' n' ∧ (layer :: layers ≠ [] → cands' = [n']) ∧
          ∃ path, n'.path = n.path ++ path ∧ LayerWalk n.elem (layer :: layers) path n'.elem := by
      intro p c j h1 h2 h3 h4 h
      obtain ⟨n', h5, h6, path, h7, h8⟩ := ih _ c h1 _ h
      refine ⟨n', h5, fun _ => ?_, j :: path, ?_, .cons h3 h4 h8⟩
      · by_cases hl : layers = []
        · subst hl
          cases h
          unfold Denotes at h1 h5
          rw [h1] at h5
          exact h5
        · exact h6 hl
      · rw [h7, h2]; simp
    split at h
    · cases h
    · split at h
      · rename_i hlen
        cases hi : candidateIndexFromKey layer (n.children.filter (classStep (layerRef layer)).matches) with
        | error e => rw [hi] at h; cases h
        | ok i =>
          rw [hi] at h
          obtain ⟨c, j, h1, h2, h3, h4⟩ := firstOfMany_of hlen (candidateIndex_ok hi)
          simp only [bind, Except.bind, take_drop_getElem? h1] at h
          refine key _ c j ?_ h2 h3 (.inr (by rw [← layerRef_eq]; exact h4)) h
          unfold Denotes
          rw [denotes_query hn]
          exact eval_position n h1 rfl
      · obtain ⟨c, hc⟩ := List.length_eq_one_iff.1 (by omega : (n.children.filter (classStep (layerRef layer)).matches).length = 1)
        rw [hc] at h
        obtain ⟨j, h2, h3, h4⟩ := onlyChild_of hc
        refine key none c j ?_ h2 h3 (.inl (by rw [← layerRef_eq]; exact h4)) h
        unfold Denotes
        rw [denotes_query hn, eval_all rfl]
        exact hc

theorem walk_layerLoop (root : Xml) (hg : GoodQualifiers root) (layers : List AhbLocationLayer) (final : List XStep) (n : XNode)
    (hn : Denotes root final n) (cands : List XNode) {path : List Nat} {e : Xml} (h : LayerWalk n.elem layers path e) :
    ∃ r, layerLoop root final cands layers = .ok r := by
  induction layers generalizing final cands n path with
  | nil => exact ⟨_, rfl⟩
  | cons layer layers ih =>
    cases h with
    | @cons _ child _ _ _ i path hc hi rest =>
      rw [layerLoop]
      simp only [denotes_query hn, eval_all (s := classStep (layerRef layer)) rfl]
      have key : ∀ p c j, Denotes root (final ++ [classStep (layerRef layer) p]) c → n.elem.children[j]? = some c.elem →
          Chosen layer.ref layer.openingQualifier n.elem j →
          ∃ r, layerLoop root (final ++ [classStep (layerRef layer) p]) [c] layers = .ok r := by
        intro p c j h1 h2 h3
        have : i = j := chosen_unique hi h3
        subst this
        rw [h2] at hc
        cases hc
        exact ih _ c h1 _ rest
      rcases hi with hi | hi
      · have hlen := onlyChild_filter (s := classStep (layerRef layer)) (by rw [layerRef_eq]; exact hi)
        rw [if_neg (by omega), if_neg (by omega)]
        obtain ⟨c, hc'⟩ := List.length_eq_one_iff.1 hlen
        rw [hc']
        obtain ⟨j, h2, h3, h4⟩ := onlyChild_of hc'
        refine key none c j ?_ h3 (.inl (by rw [← layerRef_eq]; exact h4))
        unfold Denotes
        rw [denotes_query hn, eval_all rfl]
        exact hc'
      · obtain ⟨hlen, c, hm, hme⟩ := firstOfMany_filter (s := classStep (layerRef layer)) (by rw [layerRef_eq]; exact hi)
        rw [if_neg (by omega), if_pos hlen]
        cases hi' : candidateIndexFromKey layer (n.children.filter (classStep (layerRef layer)).matches) with
        | error e =>
          rcases candidateIndex_error hi' with ⟨_, h⟩ | ⟨_, h⟩
          · exact absurd hme (h c hm)
          · have := good_clean hg (.inl rfl) (steps := final ++ [classStep (layerRef layer)]) (by simp)
            rw [denotes_query hn, eval_all rfl] at this
            exact absurd this h
        | ok i' =>
          obtain ⟨c, j, h1, h2, h3, h4⟩ := firstOfMany_of hlen (candidateIndex_ok hi')
          simp only [bind, Except.bind, take_drop_getElem? h1]
          refine key _ c j ?_ h3 (.inr (by rw [← layerRef_eq]; exact h4))
          unfold Denotes
          rw [denotes_query hn]
          exact eval_position n h1 rfl

theorem segment_walk {root : Xml} {code : Option PyStr} {layer : AhbLocationLayer} {final : List XStep} {n : XNode}
    (hn : Denotes root final n) {cands : List XNode} {final' : List XStep} {cands' : List XNode}
    (h : migSegmentStep root code (some layer) final cands = .ok (final', cands')) :
    ∃ n' path, Denotes root final' n' ∧ n'.path = n.path ++ path ∧ SegmentWalk code layer.openingQualifier n.elem path n'.elem ∧
      ((cands' = cands ∧ ¬ ∃ c i, code = some c ∧ c ≠ py!"UNH" ∧
          FirstOfMany (IsClass c) (Mentions py!"key" layer.openingQualifier) n.elem i) ∨
        (1 < cands'.length ∧ ∃ c i, code = some c ∧ c ≠ py!"UNH" ∧
          FirstOfMany (IsClass c) (Mentions py!"key" layer.openingQualifier) n.elem i)) := by
  unfold migSegmentStep at h
  cases code with
  | none => cases h; exact ⟨n, [], hn, by simp, .inl ⟨rfl, rfl, .inl rfl⟩, .inl ⟨rfl, by rintro ⟨_, _, h, _⟩; cases h⟩⟩
  | some c =>
    simp only at h
    split at h
    · rename_i hU
      cases h
      subst hU
      exact ⟨n, [], hn, by simp, .inl ⟨rfl, rfl, .inr (.inl rfl)⟩, .inl ⟨rfl, by rintro ⟨_, _, h, h', _⟩; cases h; exact h' rfl⟩⟩
    · rename_i hU
      simp only [denotes_query hn, eval_all (s := classStep c) rfl] at h
      have stay : (¬ ∃ i, Chosen c layer.openingQualifier n.elem i) → ¬ ∃ c' i, some c = some c' ∧ c' ≠ py!"UNH" ∧
          FirstOfMany (IsClass c') (Mentions py!"key" layer.openingQualifier) n.elem i := by
        rintro h ⟨c', i, h1, _, h2⟩
        cases h1
        exact h ⟨i, .inr h2⟩
      split at h
      · rename_i hlen
        rcases firstWithKey_cases layer.openingQualifier (n.children.filter (classStep c).matches) 0 with ⟨hi, hno⟩ | ⟨i, hi, hf⟩ | ⟨hi, _⟩
        · rw [hi] at h
          cases h
          have hno : ¬ ∃ i, Chosen c layer.openingQualifier n.elem i := by
            rintro ⟨i, h | h⟩
            · have := onlyChild_filter (s := classStep c) h; omega
            · obtain ⟨_, x, hx, hm⟩ := firstOfMany_filter (s := classStep c) h
              exact hno x hx hm
          exact ⟨n, [], hn, by simp, .inl ⟨rfl, rfl, .inr (.inr ⟨c, rfl, hno⟩)⟩, .inl ⟨rfl, stay hno⟩⟩
        · rw [hi] at h
          obtain ⟨d, j, h1, h2, h3, h4⟩ := firstOfMany_of hlen hf
          simp only [bind, Except.bind, pure, Except.pure, Nat.zero_add, Except.ok.injEq, Prod.mk.injEq] at h
          obtain ⟨rfl, rfl⟩ := h
          refine ⟨d, [j], ?_, by rw [h2], .inr ⟨c, j, rfl, hU, rfl, h3, .inr h4⟩, .inr ⟨hlen, c, j, rfl, hU, h4⟩⟩
          unfold Denotes
          rw [denotes_query hn]
          exact eval_position n h1 rfl
        · rw [hi] at h; cases h
      · split at h
        · rename_i hlen
          cases h
          obtain ⟨d, hd⟩ := List.length_eq_one_iff.1 hlen
          obtain ⟨j, h2, h3, h4⟩ := onlyChild_of hd
          refine ⟨d, [j], ?_, by rw [h2], .inr ⟨c, j, rfl, hU, rfl, h3, .inl h4⟩, .inl ⟨rfl, ?_⟩⟩
          · unfold Denotes
            rw [denotes_query hn, eval_all rfl]
            exact hd
          · rintro ⟨c', i, h1, _, h5⟩
            cases h1
            exact onlyChild_not_many h4 h5
        · cases h
          have hno : ¬ ∃ i, Chosen c layer.openingQualifier n.elem i := by
            rintro ⟨i, h | h⟩
            · have := onlyChild_filter (s := classStep c) h; omega
            · have := (firstOfMany_filter (s := classStep c) h).1; omega
          exact ⟨n, [], hn, by simp, .inl ⟨rfl, rfl, .inr (.inr ⟨c, rfl, hno⟩)⟩, .inl ⟨rfl, stay hno⟩⟩

theorem migSegmentStep_good {root : Xml} (hg : GoodQualifiers root) {code : Option PyStr} {layer : AhbLocationLayer}
    (final : List XStep) (cands : List XNode) : ∃ r, migSegmentStep root code (some layer) final cands = .ok r := by
  cases h : migSegmentStep root code (some layer) final cands with
  | ok r => exact ⟨r, rfl⟩
  | error e =>
    obtain ⟨_, steps, hc, hs⟩ := migSegmentStep_error h
    exact absurd (good_clean hg (.inl rfl) (by simp [hs])) hc

theorem segmentWalk_unique {code q : Option PyStr} {e : Xml} {p p' : List Nat} {x x' : Xml} (h : SegmentWalk code q e p x)
    (h' : SegmentWalk code q e p' x') : p = p' ∧ x = x' := by
  rcases h with ⟨rfl, rfl, h⟩ | ⟨c, i, rfl, hU, rfl, hc, hi⟩ <;> rcases h' with ⟨rfl, rfl, h'⟩ | ⟨c', i', h1, hU', rfl, hc', hi'⟩
  · exact ⟨rfl, rfl⟩
  · rcases h with h | h | ⟨c, h, hno⟩
    · rw [h] at h1; cases h1
    · rw [h] at h1; cases h1; exact absurd rfl hU'
    · rw [h] at h1; cases h1; exact absurd ⟨i', hi'⟩ hno
  · rcases h' with h | h | ⟨c, h, hno⟩
    · cases h
    · cases h; exact absurd rfl hU
    · cases h; exact absurd ⟨i, hi⟩ hno
  · cases h1
    have : i = i' := chosen_unique hi hi'
    subst this
    rw [hc] at hc'
    cases hc'
    exact ⟨rfl, rfl⟩

theorem walk_unique {e : Xml} {layers : List AhbLocationLayer} {p p' : List Nat} {x x' : Xml} (h : LayerWalk e layers p x)
    (h' : LayerWalk e layers p' x') : p = p' ∧ x = x' := by
  induction h generalizing p' with
  | nil => cases h'; exact ⟨rfl, rfl⟩
  | cons hc hi _ ih =>
    cases h' with
    | cons hc' hi' rest' =>
      have := chosen_unique hi hi'
      subst this
      rw [hc] at hc'
      cases hc'
      obtain ⟨rfl, rfl⟩ := ih rest'
      exact ⟨rfl, rfl⟩

theorem field_walk {root : Xml} {d : PyStr} {q : Option PyStr} {final : List XStep} {n : XNode} (hn : Denotes root final n)
    {cands r : List XNode} (h : fieldStep root (some d) q final cands = .ok r) :
    ∃ i c, r = [⟨n.path ++ [i], c⟩] ∧ n.elem.children[i]? = some c ∧ FieldAt d q n.elem i := by
  unfold fieldStep at h
  have hq : xpath root (final ++ [{ tag := py!"field", attr := py!"meta.id", value := d }]) =
      n.children.filter (fieldXStep d).matches := by
    rw [denotes_query hn, eval_all rfl]; rfl
  simp only [hq] at h
  split at h
  · cases h
  · split at h
    · rename_i hlen
      cases q with
      | none => cases h
      | some q =>
        simp only at h
        rcases oneWithRef_cases (some q) (n.children.filter (fieldXStep d).matches) 0 with ⟨i, hi, ho⟩ | ⟨hi, _⟩ | ⟨hi, _⟩
        · rw [hi] at h
          obtain ⟨k, c, h1, h2, h3, h4, h5⟩ := filter_onlyAt _ ho
          simp only [bind, Except.bind, pure, Except.pure, Nat.zero_add, take_drop_getElem? h2, Except.ok.injEq] at h
          subst h
          obtain ⟨h6, h7⟩ := children_lookup h1
          refine ⟨k, c.elem, by rw [← h7], h6, .inr ⟨⟨⟨c.elem, h6, matches_iff.1 h3, h4⟩, ?_⟩, ?_⟩⟩
          · intro j x hj hx
            exact h5 j ⟨n.path ++ [j], x⟩ (lookup_children hj) (matches_iff.2 hx.1) hx.2
          · obtain ⟨m, x, hm, hx, hp⟩ := filter_many _ hlen k
            exact ⟨m, x.elem, hm, (children_lookup hx).1, matches_iff.1 hp⟩
        · rw [hi] at h; cases h
        · rw [hi] at h; cases h
    · cases h
      obtain ⟨c, hc⟩ := List.length_eq_one_iff.1 (by omega : (n.children.filter (fieldXStep d).matches).length = 1)
      obtain ⟨k, h1, h2, h3⟩ := onlyChild_of hc
      exact ⟨k, c.elem, by rw [hc, ← h1], h2, .inl h3⟩

theorem field_unique {d : PyStr} {q : Option PyStr} {e : Xml} {i j : Nat} (h : FieldAt d q e i) (h' : FieldAt d q e j) : i = j := by
  have mix : ∀ {i j}, OnlyChild (IsField d) e i → (∃ (k : Nat) (x : Xml), k ≠ j ∧ e.children[k]? = some x ∧ IsField d x) →
      OnlyChild (fun e => IsField d e ∧ Mentions py!"ref" q e) e j → False := by
    rintro i j h ⟨k, x, hk, hx, hf⟩ ⟨⟨c, h1, h2, _⟩, _⟩
    have e1 := h.2 k x hx hf
    have e2 := h.2 j c h1 h2
    omega
  rcases h with h | ⟨h, hm⟩ <;> rcases h' with h' | ⟨h', hm'⟩
  · exact onlyChild_unique h h'
  · exact (mix h hm' h').elim
  · exact (mix h' hm h).elim
  · exact onlyChild_unique h h'

theorem field_exists {root : Xml} (hg : GoodQualifiers root) {d : PyStr} {q : Option PyStr} {final : List XStep} {n : XNode}
    (hn : Denotes root final n) (cands : List XNode) {i : Nat} (h : FieldAt d q n.elem i) :
    ∃ r, fieldStep root (some d) q final cands = .ok r := by
  unfold fieldStep
  have hq : xpath root (final ++ [{ tag := py!"field", attr := py!"meta.id", value := d }]) =
      n.children.filter (fieldXStep d).matches := by
    rw [denotes_query hn, eval_all rfl]; rfl
  simp only [hq]
  rcases h with h | ⟨h, hm⟩
  · have := onlyChild_filter (s := fieldXStep d) h
    rw [if_neg (by omega), if_neg (by omega)]
    exact ⟨_, rfl⟩
  · obtain ⟨⟨c, h1, h2, h3⟩, h4⟩ := h
    have hmem : (⟨n.path ++ [i], c⟩ : XNode) ∈ n.children.filter (fieldXStep d).matches :=
      List.mem_filter.2 ⟨List.mem_of_getElem? (lookup_children h1), matches_iff.2 h2⟩
    have hpos := List.length_pos_of_mem hmem
    rw [if_neg (by omega)]
    split
    · cases q with
      | none => obtain ⟨_, _, _, h, _⟩ := h3; cases h
      | some q =>
        simp only
        rcases oneWithRef_cases (some q) (n.children.filter (fieldXStep d).matches) 0 with ⟨i', hi, _⟩ | ⟨hi, hno⟩ | ⟨hi, hc⟩
        · rw [hi]; exact ⟨_, rfl⟩
        · refine absurd ?_ hno
          obtain ⟨j, hj⟩ := List.mem_iff_getElem?.1 hmem
          refine ⟨j, ⟨_, hj, h3⟩, ?_⟩
          have hnd : (n.children.filter (fieldXStep d).matches).Nodup := by
            apply List.Nodup.filter
            unfold XNode.children
            rw [List.nodup_iff_getElem?_ne_getElem?]
            intro a b hab hb heq
            rw [List.length_mapIdx] at hb
            rw [List.getElem?_mapIdx, List.getElem?_mapIdx, List.getElem?_eq_getElem hb, List.getElem?_eq_getElem (by omega)] at heq
            simp only [Option.map_some, Option.some.injEq, XNode.mk.injEq, List.append_cancel_left_eq, List.cons.injEq,
              and_true] at heq
            omega
          intro j' x hj' hx
          have hx' := List.mem_of_getElem? hj'
          obtain ⟨hx1, hx2⟩ := List.mem_filter.1 hx'
          obtain ⟨m, ch, hm1, rfl⟩ := XNode.mem_children.1 hx1
          have := h4 m ch hm1 ⟨matches_iff.1 hx2, hx⟩
          subst this
          rw [hm1] at h1
          cases h1
          obtain ⟨hlt, _⟩ := List.getElem?_eq_some_iff.1 hj
          obtain ⟨hlt', _⟩ := List.getElem?_eq_some_iff.1 hj'
          by_contra hne
          rcases Nat.lt_or_gt_of_ne hne with hl | hl
          · exact List.nodup_iff_getElem?_ne_getElem?.1 hnd j' j hl hlt (by rw [hj, hj'])
          · exact List.nodup_iff_getElem?_ne_getElem?.1 hnd j j' hl hlt' (by rw [hj, hj'])
        · have := good_clean hg (.inr rfl) (steps := final ++ [fieldXStep d]) (by simp)
          rw [denotes_query hn, eval_all rfl] at this
          exact absurd this hc
    · exact ⟨_, rfl⟩

/-- the message class is denoted by the first step -/
theorem message_denotes {root msg : Xml} {m : Nat} (hm : OnlyChild (IsClass py!"/") root m) (hc : root.children[m]? = some msg) :
    Denotes root [classStep py!"/"] ⟨[m], msg⟩ := by
  have h0 : Denotes root [] ⟨[], root⟩ := rfl
  have hlen := onlyChild_filter (s := classStep py!"/") (n := ⟨[], root⟩) hm
  obtain ⟨c, hc'⟩ := List.length_eq_one_iff.1 hlen
  obtain ⟨k, h1, h2, h3⟩ := onlyChild_of hc'
  have : m = k := onlyChild_unique hm h3
  subst this
  have h2 : root.children[m]? = some c.elem := h2
  rw [hc] at h2
  cases h2
  have := denotes_query h0 (classStep py!"/")
  rw [eval_all rfl, hc', h1] at this
  exact this

theorem getElement_found {root msg : Xml} {m : Nat} (hm : OnlyChild (IsClass py!"/") root m) (hc : root.children[m]? = some msg)
    {loc : AhbLocation} {n : XNode} (h : getElement root loc = .ok n) : ∃ path, n.path = m :: path ∧ Found msg loc path n.elem := by
  obtain ⟨hne, final, cands, final', cands', r, h1, h2, h3, rfl⟩ := getElement_parts h
  obtain ⟨n1, hd1, hc1, p1, hp1, hw1⟩ := layerLoop_walk root _ _ _ (message_denotes hm hc) _ h1
  have hcands := hc1 hne
  subst hcands
  have hlast := List.getLast?_eq_some_getLast hne
  rw [hlast] at h2
  obtain ⟨n2, p2, hd2, hp2, hw2, hcs⟩ := segment_walk hd1 h2
  cases hd : loc.dataElementId with
  | none =>
    rw [hd] at h3
    have h3 : cands' = [n] := by simpa [fieldStep] using h3
    subst h3
    rcases hcs with ⟨h4, hno⟩ | ⟨h4, _⟩
    · cases h4
      exact ⟨p1, by simpa using hp1, _, p1, n.elem, hlast, hw1, .inl ⟨hd, rfl, rfl, hno⟩⟩
    · simp at h4
  | some d =>
    rw [hd] at h3
    obtain ⟨i, c, h4, h5, h6⟩ := field_walk hd2 h3
    simp only [List.cons.injEq, and_true] at h4
    subst h4
    exact ⟨p1 ++ p2 ++ [i], by simp [hp2, hp1], _, p1, n1.elem, hlast, hw1, .inr ⟨d, p2, n2.elem, i, hd, hw2, h6, h5, rfl⟩⟩

theorem found_unique {msg : Xml} {loc : AhbLocation} {p p' : List Nat} {e e' : Xml} (h : Found msg loc p e) (h' : Found msg loc p' e') :
    p = p' ∧ e = e' := by
  obtain ⟨l, p1, c, hl, hw, h⟩ := h
  obtain ⟨l', p1', c', hl', hw', h'⟩ := h'
  rw [hl] at hl'
  cases hl'
  obtain ⟨rfl, rfl⟩ := walk_unique hw hw'
  rcases h with ⟨hd, rfl, rfl, _⟩ | ⟨d, p2, seg, i, hd, hs, hf, hc, rfl⟩ <;>
    rcases h' with ⟨hd', rfl, rfl, _⟩ | ⟨d', p2', seg', i', hd', hs', hf', hc', rfl⟩
  · exact ⟨rfl, rfl⟩
  · rw [hd] at hd'; cases hd'
  · rw [hd] at hd'; cases hd'
  · rw [hd] at hd'
    cases hd'
    obtain ⟨rfl, rfl⟩ := segmentWalk_unique hs hs'
    have := field_unique hf hf'
    subst this
    rw [hc] at hc'
    cases hc'
    exact ⟨rfl, rfl⟩

theorem found_getElement {root msg : Xml} {m : Nat} (hns : InNoNamespace root) (hg : GoodQualifiers root) (hm : OnlyChild (IsClass py!"/") root m)
    (hc : root.children[m]? = some msg) {loc : AhbLocation} {path : List Nat} {e : Xml} (h : Found msg loc path e) :
    getElement root loc = .ok ⟨m :: path, e⟩ := by
  have hok : ∃ n, getElement root loc = .ok n := by
    obtain ⟨layer, p1, class_, hl, hw, h⟩ := id h
    have hne : loc.layers ≠ [] := by rintro h; rw [h] at hl; cases hl
    obtain ⟨⟨final, cands⟩, h1⟩ := walk_layerLoop root hg _ _ _ (message_denotes hm hc) [] hw
    obtain ⟨n1, hd1, hc1, p1', hp1, hw1⟩ := layerLoop_walk root _ _ _ (message_denotes hm hc) _ h1
    obtain ⟨rfl, he⟩ := walk_unique hw hw1
    obtain ⟨⟨final', cands'⟩, h2⟩ := migSegmentStep_good hg (code := loc.segmentCode) (layer := layer) final cands
    obtain ⟨n2, p2, hd2, hp2, hw2, hcs⟩ := segment_walk hd1 h2
    rw [← hl] at h2
    rcases h with ⟨hd, _, _, hno⟩ | ⟨d, p2', seg, i, hd, hs, hf, _, _⟩
    · have h3 : fieldStep root loc.dataElementId loc.qualifier final' cands' = .ok cands' := by rw [hd]; rfl
      rw [getElement_of_parts hns hne h1 h2 h3]
      rcases hcs with ⟨h4, _⟩ | ⟨_, h4⟩
      · rw [h4, hc1 hne]; exact ⟨n1, rfl⟩
      · rw [← he] at h4; exact absurd h4 hno
    · rw [← he] at hw2
      obtain ⟨rfl, rfl⟩ := segmentWalk_unique hs hw2
      obtain ⟨r, h3⟩ := field_exists hg hd2 cands' hf
      obtain ⟨j, c, h4, _, _⟩ := field_walk hd2 h3
      rw [← hd] at h3
      rw [getElement_of_parts hns hne h1 h2 h3, h4]
      exact ⟨_, rfl⟩
  obtain ⟨n, hn⟩ := hok
  obtain ⟨p, hp, hf⟩ := getElement_found hm hc hn
  obtain ⟨rfl, rfl⟩ := found_unique h hf
  rw [hn, ← hp]

/-! ## stacks -/

/-- the name of the element itself -/
def ownName (e : Xml) : Option PyStr := (nameKeys (decide (e.tag = py!"class"))).findSome? fun key => dictGet key e.attrib

theorem ownName_iff (e : Xml) (n : PyStr) : ownName e = some n ↔ NameOf e n := by
  unfold ownName NameOf nameKeys
  by_cases h : e.tag = py!"class"
  · simp only [h, decide_true, if_true, List.findSome?, true_and, ne_eq, not_true_eq_false, false_and, or_false]
    cases dictGet py!"migName" e.attrib <;> cases dictGet py!"ahbName" e.attrib <;> cases dictGet py!"name" e.attrib <;> simp
  · simp only [h, decide_false, Bool.false_eq_true, if_false, List.findSome?, false_and, ne_eq, not_false_eq_true, true_and, false_or]
    cases dictGet py!"migName" e.attrib <;> cases dictGet py!"ahbName" e.attrib <;> cases dictGet py!"name" e.attrib <;> simp

theorem ownName_none (e : Xml) : ownName e = none ↔ ¬ ∃ n, NameOf e n := by
  simp only [← ownName_iff]
  cases ownName e <;> simp

theorem stackLoop_cons (name : Option PyStr) (e leaf : Xml) (i : Nat) (path : List Nat) (h : e.children[i]? = some leaf) :
    stackLoop name e (i :: path) = match (ownName leaf).or name with
      | none => .error .unboundLocalError
      | some n => (stackLoop (some n) leaf path).map fun rest => ⟨n, decide (leaf.tag = py!"class"), none⟩ :: rest := by
  rw [stackLoop, h]
  simp only [ownName]
  cases (nameKeys (decide (leaf.tag = py!"class"))).findSome? fun key => dictGet key leaf.attrib with
  | some n =>
    simp only [Option.some_or]
    cases stackLoop (some n) leaf path <;> rfl
  | none =>
    cases name with
    | none => rfl
    | some n =>
      simp only [Option.none_or]
      cases stackLoop (some n) leaf path <;> rfl

/-- the levels along the elements, with the name of the last named element above -/
inductive Levels : Option PyStr → List Xml → List EdifactStackLevel → Prop
  | nil (name : Option PyStr) : Levels name [] []
  | cons {name : Option PyStr} {e : Xml} {es : List Xml} {n : PyStr} {ls : List EdifactStackLevel}
      (h : (ownName e).or name = some n) (rest : Levels (some n) es ls) :
      Levels name (e :: es) (⟨n, decide (e.tag = py!"class"), none⟩ :: ls)

theorem stackLoop_levels (name : Option PyStr) (e : Xml) (path : List Nat) {es : List Xml} (h : lineage e path = some es) :
    (∀ ls, stackLoop name e path = .ok ls ↔ Levels name es ls) ∧
      (∀ x, stackLoop name e path = .error x → x = .unboundLocalError ∧ name = none ∧ ∃ y ys, es = y :: ys ∧ ownName y = none) := by
  induction path generalizing name e es with
  | nil =>
    cases h
    refine ⟨fun ls => ?_, fun x h => by cases h⟩
    rw [stackLoop]
    constructor
    · intro h; cases h; exact .nil _
    · intro h; cases h; rfl
  | cons i path ih =>
    rw [lineage] at h
    cases hc : e.children[i]? with
    | none => rw [hc] at h; cases h
    | some leaf =>
      rw [hc] at h
      simp only [Option.map_eq_some_iff] at h
      obtain ⟨es, hes, rfl⟩ := h
      rw [stackLoop_cons _ _ _ _ _ hc]
      cases hn : (ownName leaf).or name with
      | none =>
        refine ⟨fun ls => ⟨fun h => (by cases h), ?_⟩, fun x h => ?_⟩
        · intro h; cases h with | cons h _ => rw [hn] at h; cases h
        · simp only [Option.or_eq_none_iff] at hn
          cases h
          exact ⟨rfl, hn.2, leaf, es, rfl, hn.1⟩
      | some n =>
        obtain ⟨ih1, ih2⟩ := ih (some n) leaf hes
        simp only
        refine ⟨fun ls => ?_, fun x h => ?_⟩
        · cases hr : stackLoop (some n) leaf path with
          | error y => obtain ⟨_, h, _⟩ := ih2 y hr; cases h
          | ok rest =>
            simp only [Except.map, Except.ok.injEq]
            constructor
            · rintro rfl; exact .cons hn ((ih1 rest).1 hr)
            · intro h
              cases h with
              | cons h1 h2 =>
                rw [hn] at h1
                cases h1
                rw [(ih1 _).2 h2] at hr
                cases hr
                rfl
        · cases hr : stackLoop (some n) leaf path with
          | error y => obtain ⟨_, h, _⟩ := ih2 y hr; cases h
          | ok rest => rw [hr] at h; cases h

theorem levels_exist (name : Option PyStr) (es : List Xml) (h : name ≠ none ∨ ∀ y ys, es = y :: ys → ownName y ≠ none) :
    ∃ ls, Levels name es ls := by
  induction es generalizing name with
  | nil => exact ⟨[], .nil _⟩
  | cons e es ih =>
    have : ∃ n, (ownName e).or name = some n := by
      rw [← Option.ne_none_iff_exists']
      intro hn
      rw [Option.or_eq_none_iff] at hn
      rcases h with h | h
      · exact h hn.2
      · exact h e es rfl hn.1
    obtain ⟨n, hn⟩ := this
    obtain ⟨ls, hls⟩ := ih (some n) (.inl (by simp))
    exact ⟨_, .cons hn hls⟩

theorem levels_append {name : Option PyStr} {es es' : List Xml} {ls : List EdifactStackLevel} (h : Levels name (es ++ es') ls) :
    ∃ ls1 ls2, ls = ls1 ++ ls2 ∧ Levels name es ls1 := by
  induction es generalizing name ls with
  | nil => exact ⟨[], ls, rfl, .nil _⟩
  | cons e es ih =>
    cases h with
    | cons h1 h2 =>
      obtain ⟨ls1, ls2, rfl, h3⟩ := ih h2
      exact ⟨_, ls2, rfl, .cons h1 h3⟩

/-- the name comes from the element itself or the nearest named one above -/
def NameFrom (es : List Xml) (n : PyStr) : Prop :=
  ∃ before named after, es = before ++ named :: after ∧ NameOf named n ∧ ∀ x ∈ after, ¬ ∃ n, NameOf x n

theorem levels_spec {name : Option PyStr} {es : List Xml} {ls : List EdifactStackLevel} (h : Levels name es ls) (above : List Xml)
    (ha : ∀ n, name = some n → NameFrom above n) :
    ls.length = es.length ∧ ∀ (i : Nat) (e : Xml) (l : EdifactStackLevel), es[i]? = some e → ls[i]? = some l →
      LevelOf (above ++ es.take i) e l := by
  induction h generalizing above with
  | nil => exact ⟨rfl, fun i e l h => by simp at h⟩
  | @cons name e es n ls hn _ ih =>
    have hname : NameFrom (above ++ [e]) n := by
      cases ho : ownName e with
      | some m =>
        rw [ho] at hn
        cases hn
        exact ⟨above, e, [], rfl, (ownName_iff e _).1 ho, by simp⟩
      | none =>
        rw [ho] at hn
        obtain ⟨b, x, a, rfl, h1, h2⟩ := ha n hn
        refine ⟨b, x, a ++ [e], by simp, h1, ?_⟩
        intro y hy
        rcases List.mem_append.1 hy with hy | hy
        · exact h2 y hy
        · rw [List.mem_singleton] at hy; subst hy; exact (ownName_none y).1 ho
    obtain ⟨h1, h2⟩ := ih (above ++ [e]) (by intro m hm; cases hm; exact hname)
    refine ⟨by simp [h1], ?_⟩
    intro i x l hx hl
    cases i with
    | zero =>
      simp only [List.getElem?_cons_zero, Option.some.injEq] at hx hl
      subst hx hl
      refine ⟨by simp, rfl, ?_⟩
      rw [List.take_zero, List.append_nil]
      exact hname
    | succ i =>
      have := h2 i x l (by simpa using hx) (by simpa using hl)
      simpa using this

/-! ## a test for dangling pipes -/

/-- the attribute can be read -/
def readable (k : PyStr) (e : Xml) : Bool :=
  match dictGet k e.attrib with
  | none => true
  | some body => match qualifiersOfBody body with
    | .ok _ => true
    | .error _ => false

mutual
/-- the qualifiers below the element can be read -/
def goodB : Xml → Bool
  | .elem _ _ _ c => goodsB c
/-- the qualifiers in the elements and below can be read -/
def goodsB : List Xml → Bool
  | [] => true
  | x :: xs => readable py!"key" x && readable py!"ref" x && goodB x && goodsB xs
end

theorem goodsB_iff (l : List Xml) : goodsB l = true ↔ ∀ x ∈ l, readable py!"key" x = true ∧ readable py!"ref" x = true ∧ goodB x = true := by
  induction l with
  | nil => rw [goodsB]; simp
  | cons x l ih => rw [goodsB]; simp [ih, and_assoc]

theorem goodB_iff (e : Xml) : goodB e = goodsB e.children := by cases e; rw [goodB]; rfl

theorem readable_no_pipe {k body : PyStr} {e : Xml} (h : readable k e = true) (hb : dictGet k e.attrib = some body) : ¬ DanglingPipe body := by
  unfold readable at h
  rw [hb] at h
  rcases qualifiers_cases body with ⟨_, h2⟩ | ⟨h1, _⟩
  · simp only [h2] at h; cases h
  · exact h1

theorem good_of_goodB {root : Xml} (h : goodB root = true) : GoodQualifiers root := by
  intro path es e k body hl he hk hb
  induction path generalizing root es with
  | nil => cases hl; cases he
  | cons i path ih =>
    rw [lineage] at hl
    cases hc : root.children[i]? with
    | none => rw [hc] at hl; cases hl
    | some c =>
      rw [hc, Option.map_eq_some_iff] at hl
      obtain ⟨es', hl, rfl⟩ := hl
      rw [goodB_iff, goodsB_iff] at h
      obtain ⟨h1, h2, h3⟩ := h c (List.mem_of_getElem? hc)
      rcases List.mem_cons.1 he with rfl | he
      · rcases hk with rfl | rfl
        · exact readable_no_pipe h1 hb
        · exact readable_no_pipe h2 hb
      · exact ih h3 _ hl he

end Verif
