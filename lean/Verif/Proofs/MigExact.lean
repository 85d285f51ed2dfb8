import Verif.Spec.MigExact
import Verif.Proofs.MigXml
/-!
# Which lookups raise an `IndexError` (C111)
-/

namespace Verif

theorem hasQualifier_error {k : PyStr} {q : Option PyStr} {n : XNode} {e : Exc} :
    hasQualifier k q n = .error e ↔ e = .indexError ∧ Unreadable k n.elem := by
  unfold hasQualifier getNestedQualifiers Unreadable
  cases hd : dictGet k n.elem.attrib with
  | none => simp [bind, Except.bind, pure, Except.pure]
  | some body =>
    rcases qualifiers_cases body with ⟨h1, h2⟩ | ⟨h1, r, h2⟩
    · simp only [h2, bind, Except.bind, Except.error.injEq, Option.some.injEq, exists_eq_left', h1, and_true, eq_comm]
    · simp only [h2, bind, Except.bind, pure, Except.pure, reduceCtorEq, Option.some.injEq, exists_eq_left', h1, and_false]

theorem hasQualifier_unreadable {k : PyStr} {q : Option PyStr} {n : XNode} (h : Unreadable k n.elem) :
    hasQualifier k q n = .error .indexError := hasQualifier_error.2 ⟨rfl, h⟩

/-! ## the scans -/

theorem possibleResults_error (q : Option PyStr) (l : List XNode) (k : Nat) :
    possibleResults q k l = .error .indexError ↔ ∃ n ∈ l, Unreadable py!"key" n.elem := by
  induction l generalizing k with
  | nil => simp [possibleResults]
  | cons c cs ih =>
    rw [possibleResults]
    cases hb : hasQualifier py!"key" q c with
    | error e =>
      obtain ⟨rfl, hu⟩ := hasQualifier_error.1 hb
      simp [bind, Except.bind, hu]
    | ok b =>
      have hc : ¬ Unreadable py!"key" c.elem := fun h => by rw [hasQualifier_unreadable h] at hb; cases hb
      simp only [bind, Except.bind, List.exists_mem_cons_iff, hc, false_or, ← ih (k + 1)]
      cases possibleResults q (k + 1) cs <;> simp [pure, Except.pure]

theorem candidateIndex_indexError (layer : AhbLocationLayer) (l : List XNode) :
    candidateIndexFromKey layer l = .error .indexError ↔ ∃ n ∈ l, Unreadable py!"key" n.elem := by
  rw [← possibleResults_error layer.openingQualifier l 0]
  unfold candidateIndexFromKey
  cases possibleResults layer.openingQualifier 0 l with
  | error e => simp [bind, Except.bind]
  | ok r => cases r <;> simp [bind, Except.bind]

theorem firstWithKey_indexError (q : Option PyStr) (l : List XNode) (k : Nat) :
    firstWithKey q k l = .error .indexError ↔ ∃ before n after, l = before ++ n :: after ∧ Unreadable py!"key" n.elem ∧
      ∀ m ∈ before, ¬ Mentions py!"key" q m.elem := by
  induction l generalizing k with
  | nil => simp [firstWithKey]
  | cons c cs ih =>
    rw [firstWithKey]
    constructor
    · intro h
      cases hb : hasQualifier py!"key" q c with
      | error e => exact ⟨[], c, cs, rfl, (hasQualifier_error.1 hb).2, by simp⟩
      | ok b =>
        rw [hb] at h
        cases b with
        | true => cases h
        | false =>
          obtain ⟨before, n, after, rfl, h1, h2⟩ := (ih (k + 1)).1 h
          refine ⟨c :: before, n, after, rfl, h1, ?_⟩
          simpa using ⟨hasQualifier_false hb, h2⟩
    · rintro ⟨before, n, after, heq, h1, h2⟩
      cases before with
      | nil => cases heq; rw [hasQualifier_unreadable h1]; rfl
      | cons c' before =>
        cases heq
        simp only [List.mem_cons, forall_eq_or_imp] at h2
        rcases hasQualifier_cases py!"key" q c with ⟨b, hb⟩ | ⟨hb, _⟩
        · rw [hb]
          cases b with
          | true => exact absurd (hasQualifier_true.1 hb) h2.1
          | false => exact (ih (k + 1)).2 ⟨before, n, after, rfl, h1, h2.2⟩
        · rw [hb]; rfl

theorem noFurther_indexError (q : Option PyStr) (l : List XNode) (i : Nat) :
    noFurther q i l = .error .indexError ↔ ∃ before n after, l = before ++ n :: after ∧ Unreadable py!"ref" n.elem ∧
      ∀ m ∈ before, ¬ Mentions py!"ref" q m.elem := by
  induction l with
  | nil => simp [noFurther]
  | cons c cs ih =>
    rw [noFurther]
    constructor
    · intro h
      cases hb : hasQualifier py!"ref" q c with
      | error e => exact ⟨[], c, cs, rfl, (hasQualifier_error.1 hb).2, by simp⟩
      | ok b =>
        rw [hb] at h
        cases b with
        | true => cases h
        | false =>
          obtain ⟨before, n, after, rfl, h1, h2⟩ := ih.1 h
          refine ⟨c :: before, n, after, rfl, h1, ?_⟩
          simpa using ⟨hasQualifier_false hb, h2⟩
    · rintro ⟨before, n, after, heq, h1, h2⟩
      cases before with
      | nil => cases heq; rw [hasQualifier_unreadable h1]; rfl
      | cons c' before =>
        cases heq
        simp only [List.mem_cons, forall_eq_or_imp] at h2
        rcases hasQualifier_cases py!"ref" q c with ⟨b, hb⟩ | ⟨hb, _⟩
        · rw [hb]
          cases b with
          | true => exact absurd (hasQualifier_true.1 hb) h2.1
          | false => exact ih.2 ⟨before, n, after, rfl, h1, h2.2⟩
        · rw [hb]; rfl

/-- at most one element of the list has the property -/
def AtMostOnce {α : Type} (Q : α → Prop) (l : List α) : Prop := ∀ b1 d b2, l = b1 ++ d :: b2 → Q d → ∀ d' ∈ b2, ¬ Q d'

theorem atMostOnce_cons {α : Type} {Q : α → Prop} {x : α} {l : List α} :
    AtMostOnce Q (x :: l) ↔ (Q x → ∀ d ∈ l, ¬ Q d) ∧ AtMostOnce Q l := by
  constructor
  · intro h
    refine ⟨h [] x l rfl, ?_⟩
    rintro b1 d b2 rfl
    exact h (x :: b1) d b2 rfl
  · rintro ⟨h1, h2⟩ b1 d b2 heq
    cases b1 with
    | nil => cases heq; exact h1
    | cons y b1 => cases heq; exact h2 b1 d b2 rfl

theorem oneWithRef_indexError (q : Option PyStr) (l : List XNode) (k : Nat) :
    oneWithRef q k l = .error .indexError ↔ ∃ before n after, l = before ++ n :: after ∧ Unreadable py!"ref" n.elem ∧
      AtMostOnce (fun m : XNode => Mentions py!"ref" q m.elem) before := by
  induction l generalizing k with
  | nil => simp [oneWithRef]
  | cons c cs ih =>
    rw [oneWithRef]
    constructor
    · intro h
      cases hb : hasQualifier py!"ref" q c with
      | error e => exact ⟨[], c, cs, rfl, (hasQualifier_error.1 hb).2, by rintro b1 d b2 h; simp at h⟩
      | ok b =>
        rw [hb] at h
        cases b with
        | true =>
          obtain ⟨before, n, after, rfl, h1, h2⟩ := (noFurther_indexError q cs k).1 h
          refine ⟨c :: before, n, after, rfl, h1, atMostOnce_cons.2 ⟨fun _ => h2, ?_⟩⟩
          rintro b1 d b2 rfl hd
          exact absurd hd (h2 d (by simp))
        | false =>
          obtain ⟨before, n, after, rfl, h1, h2⟩ := (ih (k + 1)).1 h
          exact ⟨c :: before, n, after, rfl, h1, atMostOnce_cons.2 ⟨fun h => absurd h (hasQualifier_false hb), h2⟩⟩
    · rintro ⟨before, n, after, heq, h1, h2⟩
      cases before with
      | nil => cases heq; rw [hasQualifier_unreadable h1]; rfl
      | cons c' before =>
        cases heq
        obtain ⟨h3, h4⟩ := atMostOnce_cons.1 h2
        rcases hasQualifier_cases py!"ref" q c with ⟨b, hb⟩ | ⟨hb, _⟩
        · rw [hb]
          cases b with
          | true => exact (noFurther_indexError q _ k).2 ⟨before, n, after, rfl, h1, h3 (hasQualifier_true.1 hb)⟩
          | false => exact (ih (k + 1)).2 ⟨before, n, after, rfl, h1, h4⟩
        · rw [hb]; rfl

/-! ## from the candidates to the children -/

theorem children_elems (n : XNode) : n.children.map XNode.elem = n.elem.children := by
  apply List.ext_getElem?
  intro i
  rw [List.getElem?_map]
  cases h : n.elem.children[i]? with
  | none =>
    cases h' : n.children[i]? with
    | none => rfl
    | some c => rw [(children_lookup h').1] at h; cases h
  | some d => rw [lookup_children h]; rfl

/-- the candidates of a step -/
def XNode.candidates (n : XNode) (s : XStep) : List XNode := n.children.filter s.matches

theorem several_iff {s : XStep} {n : XNode} : 1 < (n.candidates s).length ↔ SeveralChildren (StepOk s) n.elem := by
  constructor
  · intro h
    obtain ⟨i, c, -, hi, hp⟩ := filter_many (P := s.matches) n.children h n.children.length
    obtain ⟨j, d, hj, hd, hq⟩ := filter_many (P := s.matches) n.children h i
    exact ⟨i, j, c.elem, d.elem, Ne.symm hj, (children_lookup hi).1, (children_lookup hd).1, matches_iff.1 hp, matches_iff.1 hq⟩
  · rintro ⟨i, j, c, d, hne, hi, hj, hc, hd⟩
    have hmem : (⟨n.path ++ [i], c⟩ : XNode) ∈ n.candidates s :=
      List.mem_filter.2 ⟨List.mem_of_getElem? (lookup_children hi), matches_iff.2 hc⟩
    have hpos := List.length_pos_of_mem hmem
    by_contra hlt
    obtain ⟨x, hx⟩ := List.length_eq_one_iff.1 (by omega : (n.candidates s).length = 1)
    obtain ⟨k, _, _, ho⟩ := onlyChild_of hx
    have e1 := ho.2 i c hi hc
    have e2 := ho.2 j d hj hd
    omega

theorem candidates_mem {s : XStep} {n : XNode} {P : Xml → Prop} :
    (∃ c ∈ n.candidates s, P c.elem) ↔ ∃ c ∈ n.elem.children, StepOk s c ∧ P c := by
  rw [← children_elems]
  constructor
  · rintro ⟨c, hc, hp⟩
    obtain ⟨h1, h2⟩ := List.mem_filter.1 hc
    exact ⟨c.elem, List.mem_map_of_mem h1, matches_iff.1 h2, hp⟩
  · rintro ⟨c, hc, hs, hp⟩
    obtain ⟨x, hx, rfl⟩ := List.mem_map.1 hc
    exact ⟨x, List.mem_filter.2 ⟨hx, matches_iff.2 hs⟩, hp⟩

/-- a candidate and the candidates before it are a child and the children before it with the right attribute -/
theorem candidates_split {s : XStep} {n : XNode} {P : List Xml → Xml → Prop} {P' : List XNode → Xml → Prop}
    (hP : ∀ (before : List XNode) (e : Xml), P' (before.filter s.matches) e ↔ P (before.map XNode.elem) e) :
    (∃ before c after, n.candidates s = before ++ c :: after ∧ P' before c.elem) ↔
    ∃ before e after, n.elem.children = before ++ e :: after ∧ StepOk s e ∧ P before e := by
  rw [← children_elems]
  constructor
  · rintro ⟨before, c, after, h, hp⟩
    obtain ⟨l1, l2, hl, h1, h2⟩ := List.filter_eq_append_iff.1 h
    obtain ⟨m1, m2, hm, h3, h4, h5⟩ := List.filter_eq_cons_iff.1 h2
    refine ⟨(l1 ++ m1).map XNode.elem, c.elem, m2.map XNode.elem, by rw [hl, hm]; simp, matches_iff.1 h4, (hP _ _).1 ?_⟩
    rw [List.filter_append, h1, List.filter_eq_nil_iff.2 (by simpa using h3), List.append_nil]
    exact hp
  · rintro ⟨before, e, after, h, hs, hp⟩
    obtain ⟨l1, l2, hl, rfl, h2⟩ := List.map_eq_append_iff.1 h
    obtain ⟨c, l3, rfl, rfl, rfl⟩ := List.map_eq_cons_iff.1 h2
    refine ⟨l1.filter s.matches, c, l3.filter s.matches, ?_, (hP _ _).2 hp⟩
    rw [XNode.candidates, hl, List.filter_append, List.filter_cons_of_pos (matches_iff.2 hs)]

theorem not_several {P : Xml → Prop} {e : Xml} {i : Nat} (h : OnlyChild P e i) : ¬ SeveralChildren P e := by
  rintro ⟨a, b, c, d, hne, ha, hb, hc, hd⟩
  have e1 := h.2 a c ha hc
  have e2 := h.2 b d hb hd
  omega

/-! ## the layers -/

theorem layerLoop_indexError (root : Xml) (layers : List AhbLocationLayer) (final : List XStep) (n : XNode) (hn : Denotes root final n)
    (cands : List XNode) : layerLoop root final cands layers = .error .indexError ↔ LayerCrash n.elem layers := by
  induction layers generalizing final cands n with
  | nil => simp only [layerLoop, reduceCtorEq, false_iff]; intro h; cases h
  | cons layer layers ih =>
    rw [layerLoop]
    simp only [denotes_query hn, eval_all (s := classStep (layerRef layer)) rfl]
    have hcd : n.children.filter (classStep (layerRef layer)).matches = n.candidates (classStep (layerRef layer)) := rfl
    have hsev : 1 < (n.candidates (classStep (layerRef layer))).length ↔ SeveralChildren (IsClass layer.ref) n.elem := by
      rw [several_iff, ← layerRef_eq]; rfl
    rw [hcd]
    have key : ∀ p c j, Denotes root (final ++ [classStep (layerRef layer) p]) c → n.elem.children[j]? = some c.elem →
        Chosen layer.ref layer.openingQualifier n.elem j →
        (¬ ∃ c ∈ n.candidates (classStep (layerRef layer)),
          Unreadable py!"key" c.elem ∧ SeveralChildren (IsClass layer.ref) n.elem) →
        (layerLoop root (final ++ [classStep (layerRef layer) p]) [c] layers = .error .indexError ↔
          LayerCrash n.elem (layer :: layers)) := by
      intro p c j h1 h2 h3 h4
      rw [ih _ c h1]
      constructor
      · exact .deeper h2 h3
      · intro h
        cases h with
        | @here _ x _ _ several hc hr hu =>
          obtain ⟨y, hy, hyu⟩ := (candidates_mem (s := classStep (layerRef layer)) (P := Unreadable py!"key")).2
            ⟨x, hc, by rw [layerRef_eq]; exact hr, hu⟩
          exact absurd ⟨y, hy, hyu, several⟩ h4
        | @deeper _ child _ _ i hc hi rest =>
          have : i = j := chosen_unique hi h3
          subst this
          rw [h2] at hc
          cases hc
          exact rest
    split
    · rename_i hlen
      simp only [Except.error.injEq, reduceCtorEq, false_iff]
      intro h
      cases h with
      | here several hc hr hu => have := hsev.2 several; omega
      | @deeper _ child _ _ i hc hi rest =>
        rcases hi with hi | hi
        · have := onlyChild_filter (s := classStep (layerRef layer)) (by rw [layerRef_eq]; exact hi)
          rw [hcd] at this; omega
        · have := (firstOfMany_filter (s := classStep (layerRef layer)) (by rw [layerRef_eq]; exact hi)).1
          rw [hcd] at this; omega
    · split
      · rename_i hlen
        cases hi : candidateIndexFromKey layer (n.candidates (classStep (layerRef layer))) with
        | error e =>
          have hval := candidateIndex_error hi
          simp only [bind, Except.bind, Except.error.injEq]
          rw [show (e = .indexError) ↔ candidateIndexFromKey layer (n.candidates (classStep (layerRef layer))) = .error .indexError by
            rw [hi]; simp, candidateIndex_indexError, candidates_mem (s := classStep (layerRef layer)) (P := Unreadable py!"key")]
          constructor
          · rintro ⟨x, hx, hs, hu⟩
            exact .here (hsev.1 hlen) hx (by rw [← layerRef_eq]; exact hs) hu
          · intro h
            cases h with
            | @here _ x _ _ several hc hr hu => exact ⟨x, hc, by rw [layerRef_eq]; exact hr, hu⟩
            | @deeper _ child _ _ i hc hi' rest =>
              rcases hval with ⟨_, hno⟩ | ⟨rfl, _⟩
              · rcases hi' with hi' | hi'
                · exact absurd (hsev.1 hlen) (not_several hi')
                · obtain ⟨_, x, hx, hm⟩ := firstOfMany_filter (s := classStep (layerRef layer)) (by rw [layerRef_eq]; exact hi')
                  exact absurd hm (hno x hx)
              · exact (candidates_mem (s := classStep (layerRef layer)) (P := Unreadable py!"key")).1
                  ((candidateIndex_indexError _ _).1 hi)
        | ok i =>
          obtain ⟨c, j, h1, h2, h3, h4⟩ := firstOfMany_of hlen (candidateIndex_ok hi)
          simp only [bind, Except.bind]
          rw [← hcd, take_drop_getElem? h1]
          refine key _ c j ?_ h3 (.inr (by rw [← layerRef_eq]; exact h4)) ?_
          · unfold Denotes
            rw [denotes_query hn]
            exact eval_position n h1 rfl
          · rintro ⟨x, hx, hu, _⟩
            have := (candidateIndex_indexError layer _).2 ⟨x, hx, hu⟩
            rw [hi] at this
            cases this
      · rename_i h0 hlen
        obtain ⟨c, hc⟩ := List.length_eq_one_iff.1 (by omega : (n.candidates (classStep (layerRef layer))).length = 1)
        rw [hc]
        obtain ⟨j, h2, h3, h4⟩ := onlyChild_of hc
        refine key none c j ?_ h3 (.inl (by rw [← layerRef_eq]; exact h4)) ?_
        · unfold Denotes
          rw [denotes_query hn, eval_all rfl]
          exact hc
        · rintro ⟨_, _, _, hs⟩
          have := hsev.2 hs
          omega

/-- whatever can be read: if the layers lead somewhere, they are followed or there is an `IndexError` -/
theorem walk_layerLoop_any (root : Xml) (layers : List AhbLocationLayer) (final : List XStep) (n : XNode) (hn : Denotes root final n)
    (cands : List XNode) {path : List Nat} {e : Xml} (h : LayerWalk n.elem layers path e) :
    (∃ r, layerLoop root final cands layers = .ok r) ∨ layerLoop root final cands layers = .error .indexError := by
  induction layers generalizing final cands n path with
  | nil => exact .inl ⟨_, rfl⟩
  | cons layer layers ih =>
    cases h with
    | @cons _ child _ _ _ i path hc hi rest =>
      rw [layerLoop]
      simp only [denotes_query hn, eval_all (s := classStep (layerRef layer)) rfl]
      have key : ∀ p c j, Denotes root (final ++ [classStep (layerRef layer) p]) c → n.elem.children[j]? = some c.elem →
          Chosen layer.ref layer.openingQualifier n.elem j →
          (∃ r, layerLoop root (final ++ [classStep (layerRef layer) p]) [c] layers = .ok r) ∨
            layerLoop root (final ++ [classStep (layerRef layer) p]) [c] layers = .error .indexError := by
        intro p c j h1 h2 h3
        have : i = j := chosen_unique hi h3
        subst this
        rw [h2] at hc
        cases hc
        exact ih _ c h1 _ rest
      rcases hi with hi | hi
      · have hlen := onlyChild_filter (s := classStep (layerRef layer)) (by rw [layerRef_eq]; exact hi)
        rw [if_neg (by omega), if_neg (by omega)]
        obtain ⟨c, hc'⟩ := List.length_eq_one_iff.1 hlen
        rw [hc']
        obtain ⟨j, h2, h3, h4⟩ := onlyChild_of hc'
        refine key none c j ?_ h3 (.inl (by rw [← layerRef_eq]; exact h4))
        unfold Denotes
        rw [denotes_query hn, eval_all rfl]
        exact hc'
      · obtain ⟨hlen, c, hm, hme⟩ := firstOfMany_filter (s := classStep (layerRef layer)) (by rw [layerRef_eq]; exact hi)
        rw [if_neg (by omega), if_pos hlen]
        cases hi' : candidateIndexFromKey layer (n.children.filter (classStep (layerRef layer)).matches) with
        | error e =>
          rcases candidateIndex_error hi' with ⟨_, h⟩ | ⟨rfl, _⟩
          · exact absurd hme (h c hm)
          · exact .inr rfl
        | ok i' =>
          obtain ⟨c, j, h1, h2, h3, h4⟩ := firstOfMany_of hlen (candidateIndex_ok hi')
          simp only [bind, Except.bind, take_drop_getElem? h1]
          refine key _ c j ?_ h3 (.inr (by rw [← layerRef_eq]; exact h4))
          unfold Denotes
          rw [denotes_query hn]
          exact eval_position n h1 rfl

/-! ## the segment -/

theorem scan_filter {s : XStep} {k : PyStr} {q : Option PyStr} (before : List XNode) :
    (∀ m ∈ before.filter s.matches, ¬ Mentions k q m.elem) ↔
      ∀ d ∈ before.map XNode.elem, StepOk s d → ¬ Mentions k q d := by
  simp only [List.mem_filter, and_imp, List.forall_mem_map, matches_iff]

theorem segment_indexError {root : Xml} {code : Option PyStr} {layer : AhbLocationLayer} {final : List XStep} {n : XNode}
    (hn : Denotes root final n) (cands : List XNode) :
    migSegmentStep root code (some layer) final cands = .error .indexError ↔ SegmentCrash code layer.openingQualifier n.elem := by
  unfold migSegmentStep SegmentCrash
  cases code with
  | none => simp
  | some c =>
    simp only
    split
    · rename_i hU
      simp only [reduceCtorEq, Option.some.injEq, exists_and_left, exists_eq_left', false_iff, not_and]
      intro h
      exact absurd hU h
    · rename_i hU
      simp only [denotes_query hn, eval_all (s := classStep c) rfl]
      have hcd : n.children.filter (classStep c).matches = n.candidates (classStep c) := rfl
      rw [hcd]
      have hsev : 1 < (n.candidates (classStep c)).length ↔ SeveralChildren (IsClass c) n.elem := several_iff
      have hsplit := candidates_split (s := classStep c) (n := n)
        (P := fun before e => Unreadable py!"key" e ∧ ∀ d ∈ before, IsClass c d → ¬ Mentions py!"key" layer.openingQualifier d)
        (P' := fun before e => Unreadable py!"key" e ∧ ∀ m ∈ before, ¬ Mentions py!"key" layer.openingQualifier m.elem)
        (fun before e => and_congr_right fun _ => scan_filter (s := classStep c) before)
      split
      · rename_i hlen
        have hkey := firstWithKey_indexError layer.openingQualifier (n.candidates (classStep c)) 0
        rw [hsplit] at hkey
        have : (firstWithKey layer.openingQualifier 0 (n.candidates (classStep c)) >>= fun i =>
            match i with
            | none => pure (final, cands)
            | some i => pure (final ++ [classStep c (some (i + 1))], n.candidates (classStep c))) = .error .indexError ↔
            firstWithKey layer.openingQualifier 0 (n.candidates (classStep c)) = .error .indexError := by
          cases firstWithKey layer.openingQualifier 0 (n.candidates (classStep c)) with
          | error e => simp [bind, Except.bind]
          | ok o => cases o <;> simp [bind, Except.bind, pure, Except.pure]
        refine Iff.trans this (hkey.trans ?_)
        constructor
        · rintro ⟨before, e, after, h1, h2, h3, h4⟩
          exact ⟨c, before, e, after, rfl, hU, hsev.1 hlen, h1, h2, h3, h4⟩
        · rintro ⟨c', before, e, after, h0, _, _, h1, h2, h3, h4⟩
          cases h0
          exact ⟨before, e, after, h1, h2, h3, h4⟩
      · rename_i hlen
        have hno : ¬ ∃ c' before e after, some c = some c' ∧ c' ≠ py!"UNH" ∧ SeveralChildren (IsClass c') n.elem ∧
            n.elem.children = before ++ e :: after ∧ IsClass c' e ∧ Unreadable py!"key" e ∧
            ∀ d ∈ before, IsClass c' d → ¬ Mentions py!"key" layer.openingQualifier d := by
          rintro ⟨c', _, _, _, h0, _, hs, _⟩
          cases h0
          exact hlen (hsev.2 hs)
        split <;> simp only [reduceCtorEq, false_iff] <;> exact hno

theorem segment_no_valueError {root : Xml} {code : Option PyStr} {layer : AhbLocationLayer} {final : List XStep} {cands : List XNode} {e : Exc}
    (h : migSegmentStep root code (some layer) final cands = .error e) : e = .indexError := (migSegmentStep_error h).1

/-! ## the field -/

theorem field_indexError {root : Xml} {d : PyStr} {q : Option PyStr} {final : List XStep} {n : XNode} (hn : Denotes root final n)
    (cands : List XNode) : fieldStep root (some d) q final cands = .error .indexError ↔ FieldCrash d q n.elem := by
  unfold fieldStep FieldCrash
  have hq : xpath root (final ++ [{ tag := py!"field", attr := py!"meta.id", value := d }]) = n.candidates (fieldXStep d) := by
    rw [denotes_query hn, eval_all rfl]; rfl
  have hsev : 1 < (n.candidates (fieldXStep d)).length ↔ SeveralChildren (IsField d) n.elem := several_iff
  simp only [hq]
  split
  · rename_i h0
    simp only [Except.error.injEq, reduceCtorEq, false_iff]
    rintro ⟨hs, _⟩
    have := hsev.2 hs
    omega
  · split
    · rename_i hlen
      cases q with
      | none => simp
      | some q =>
        have hfil : ∀ (before : List XNode) (e : Xml),
            (Unreadable py!"ref" e ∧ AtMostOnce (fun m : XNode => Mentions py!"ref" (some q) m.elem) (before.filter (fieldXStep d).matches)) ↔
            (Unreadable py!"ref" e ∧ ∀ b1 x b2, before.map XNode.elem = b1 ++ x :: b2 → IsField d x → Mentions py!"ref" (some q) x →
              ∀ d' ∈ b2, IsField d d' → ¬ Mentions py!"ref" (some q) d') := by
          intro before e
          refine and_congr_right fun _ => ?_
          constructor
          · intro h b1 x b2 heq hx hm y hy hf hmy
            obtain ⟨l1, l2, rfl, rfl, h2⟩ := List.map_eq_append_iff.1 heq
            obtain ⟨c, l3, rfl, rfl, rfl⟩ := List.map_eq_cons_iff.1 h2
            obtain ⟨z, hz, rfl⟩ := List.mem_map.1 hy
            have hx' : (fieldXStep d).matches c = true := matches_iff.2 hx
            rw [List.filter_append, List.filter_cons_of_pos hx'] at h
            exact h _ c _ rfl hm z (List.mem_filter.2 ⟨hz, matches_iff.2 hf⟩) hmy
          · intro h b1 x b2 heq hm y hy hmy
            obtain ⟨l1, l2, rfl, h1, h2⟩ := List.filter_eq_append_iff.1 heq
            obtain ⟨m1, m2, rfl, h3, h4, rfl⟩ := List.filter_eq_cons_iff.1 h2
            obtain ⟨hy1, hy2⟩ := List.mem_filter.1 hy
            exact h ((l1 ++ m1).map XNode.elem) x.elem (m2.map XNode.elem) (by simp) (matches_iff.1 h4) hm y.elem
              (List.mem_map_of_mem hy1) (matches_iff.1 hy2) hmy
        have hkey := (oneWithRef_indexError (some q) (n.candidates (fieldXStep d)) 0).trans
          (candidates_split (s := fieldXStep d) (n := n)
            (P' := fun before e => Unreadable py!"ref" e ∧ AtMostOnce (fun m : XNode => Mentions py!"ref" (some q) m.elem) before)
            (P := fun before e => Unreadable py!"ref" e ∧ ∀ b1 x b2, before = b1 ++ x :: b2 → IsField d x → Mentions py!"ref" (some q) x →
              ∀ d' ∈ b2, IsField d d' → ¬ Mentions py!"ref" (some q) d') hfil)
        have : (oneWithRef (some q) 0 (n.candidates (fieldXStep d)) >>= fun i =>
            pure (((n.candidates (fieldXStep d)).drop i).take 1)) = (.error .indexError : PyRes (List XNode)) ↔
            oneWithRef (some q) 0 (n.candidates (fieldXStep d)) = .error .indexError := by
          cases oneWithRef (some q) 0 (n.candidates (fieldXStep d)) with
          | error e => simp [bind, Except.bind]
          | ok o => simp [bind, Except.bind, pure, Except.pure]
        refine Iff.trans this (hkey.trans ?_)
        constructor
        · rintro ⟨before, e, after, h1, h2, h3, h4⟩
          exact ⟨hsev.1 hlen, by simp, before, e, after, h1, h2, h3, h4⟩
        · rintro ⟨_, _, before, e, after, h1, h2, h3, h4⟩
          exact ⟨before, e, after, h1, h2, h3, h4⟩
    · rename_i hlen
      simp only [reduceCtorEq, false_iff]
      rintro ⟨hs, _⟩
      exact hlen (hsev.2 hs)

/-- whatever can be read: if there is a field to be found, it is found or there is an `IndexError` -/
theorem field_exists_any {root : Xml} {d : PyStr} {q : Option PyStr} {final : List XStep} {n : XNode}
    (hn : Denotes root final n) (cands : List XNode) {i : Nat} (h : FieldAt d q n.elem i) :
    fieldStep root (some d) q final cands ≠ .error .valueError := by
  unfold fieldStep
  have hq : xpath root (final ++ [{ tag := py!"field", attr := py!"meta.id", value := d }]) =
      n.children.filter (fieldXStep d).matches := by
    rw [denotes_query hn, eval_all rfl]; rfl
  simp only [hq]
  rcases h with h | ⟨h, hm⟩
  · have := onlyChild_filter (s := fieldXStep d) h
    rw [if_neg (by omega), if_neg (by omega)]
    simp
  · obtain ⟨⟨c, h1, h2, h3⟩, h4⟩ := h
    have hmem : (⟨n.path ++ [i], c⟩ : XNode) ∈ n.children.filter (fieldXStep d).matches :=
      List.mem_filter.2 ⟨List.mem_of_getElem? (lookup_children h1), matches_iff.2 h2⟩
    have hpos := List.length_pos_of_mem hmem
    rw [if_neg (by omega)]
    split
    · cases q with
      | none => obtain ⟨_, _, _, h, _⟩ := h3; cases h
      | some q =>
        simp only
        rcases oneWithRef_cases (some q) (n.children.filter (fieldXStep d).matches) 0 with ⟨i', hi, _⟩ | ⟨hi, hno⟩ | ⟨hi, hc⟩
        · rw [hi]; simp [bind, Except.bind, pure, Except.pure]
        · refine absurd ?_ hno
          obtain ⟨j, hj⟩ := List.mem_iff_getElem?.1 hmem
          refine ⟨j, ⟨_, hj, h3⟩, ?_⟩
          have hnd : (n.children.filter (fieldXStep d).matches).Nodup := by
            apply List.Nodup.filter
            unfold XNode.children
            rw [List.nodup_iff_getElem?_ne_getElem?]
            intro a b hab hb heq
            rw [List.length_mapIdx] at hb
            rw [List.getElem?_mapIdx, List.getElem?_mapIdx, List.getElem?_eq_getElem hb, List.getElem?_eq_getElem (by omega)] at heq
            simp only [Option.map_some, Option.some.injEq, XNode.mk.injEq, List.append_cancel_left_eq, List.cons.injEq,
              and_true] at heq
            omega
          intro j' x hj' hx
          have hx' := List.mem_of_getElem? hj'
          obtain ⟨hx1, hx2⟩ := List.mem_filter.1 hx'
          obtain ⟨m, ch, hm1, rfl⟩ := XNode.mem_children.1 hx1
          have := h4 m ch hm1 ⟨matches_iff.1 hx2, hx⟩
          subst this
          rw [hm1] at h1
          cases h1
          obtain ⟨hlt, _⟩ := List.getElem?_eq_some_iff.1 hj
          obtain ⟨hlt', _⟩ := List.getElem?_eq_some_iff.1 hj'
          by_contra hne
          rcases Nat.lt_or_gt_of_ne hne with hl | hl
          · exact List.nodup_iff_getElem?_ne_getElem?.1 hnd j' j hl hlt (by rw [hj, hj'])
          · exact List.nodup_iff_getElem?_ne_getElem?.1 hnd j j' hl hlt' (by rw [hj, hj'])
        · rw [hi]; simp [bind, Except.bind]
    · simp

/-! ## the lookup -/

/-- an exception of the lookup comes from one of its parts -/
theorem getElement_error_parts {root : Xml} (hns : InNoNamespace root) {loc : AhbLocation} (hne : loc.layers ≠ []) {e : Exc} :
    getElement root loc = .error e ↔
      layerLoop root [classStep py!"/"] [] loc.layers = .error e ∨
      ∃ final cands, layerLoop root [classStep py!"/"] [] loc.layers = .ok (final, cands) ∧
        (migSegmentStep root loc.segmentCode loc.layers.getLast? final cands = .error e ∨
        ∃ final' cands', migSegmentStep root loc.segmentCode loc.layers.getLast? final cands = .ok (final', cands') ∧
          (fieldStep root loc.dataElementId loc.qualifier final' cands' = .error e ∨
          ∃ r, fieldStep root loc.dataElementId loc.qualifier final' cands' = .ok r ∧ pyOne r = .error e)) := by
  unfold getElement
  cases hl : loc.layers with
  | nil => exact absurd hl hne
  | cons l ls =>
    simp only
    rw [if_neg hns]
    cases h1 : layerLoop root [classStep py!"/"] [] (l :: ls) with
    | error x => simp [bind, Except.bind]
    | ok p =>
      obtain ⟨final, cands⟩ := p
      simp only [bind, Except.bind, reduceCtorEq, false_or, Except.ok.injEq, Prod.mk.injEq]
      cases h2 : migSegmentStep root loc.segmentCode (l :: ls).getLast? final cands with
      | error x =>
        constructor
        · intro h; exact ⟨final, cands, ⟨rfl, rfl⟩, .inl (by rw [h2]; simpa using h)⟩
        · rintro ⟨_, _, ⟨rfl, rfl⟩, h | ⟨_, _, h, _⟩⟩
          · rw [h2] at h; simpa using h
          · rw [h2] at h; cases h
      | ok p =>
        obtain ⟨final', cands'⟩ := p
        simp only
        cases h3 : fieldStep root loc.dataElementId loc.qualifier final' cands' with
        | error x =>
          constructor
          · intro h; exact ⟨final, cands, ⟨rfl, rfl⟩, .inr ⟨final', cands', h2, .inl (by rw [h3]; simpa using h)⟩⟩
          · rintro ⟨_, _, ⟨rfl, rfl⟩, h | ⟨_, _, h, h'⟩⟩
            · rw [h2] at h; cases h
            · rw [h2] at h
              cases h
              rcases h' with h' | ⟨_, h', _⟩
              · rw [h3] at h'; simpa using h'
              · rw [h3] at h'; cases h'
        | ok r =>
          constructor
          · intro h; exact ⟨final, cands, ⟨rfl, rfl⟩, .inr ⟨final', cands', h2, .inr ⟨r, h3, h⟩⟩⟩
          · rintro ⟨_, _, ⟨rfl, rfl⟩, h | ⟨_, _, h, h'⟩⟩
            · rw [h2] at h; cases h
            · rw [h2] at h
              cases h
              rcases h' with h' | ⟨_, h', h4⟩
              · rw [h3] at h'; cases h'
              · rw [h3] at h'; cases h'; exact h4

theorem getElement_indexError {root msg : Xml} {m : Nat} (hns : InNoNamespace root) (hm : OnlyChild (IsClass py!"/") root m)
    (hc : root.children[m]? = some msg) {loc : AhbLocation} (hne : loc.layers ≠ []) :
    getElement root loc = .error .indexError ↔ LookupCrash msg loc := by
  rw [getElement_error_parts hns hne]
  have hmsg := message_denotes hm hc
  have hlast := List.getLast?_eq_some_getLast hne
  unfold LookupCrash
  rw [layerLoop_indexError root loc.layers _ _ hmsg []]
  constructor
  · rintro (h | ⟨final, cands, h1, h⟩)
    · exact .inl h
    refine .inr ?_
    obtain ⟨n1, hd1, hc1, p1, hp1, hw1⟩ := layerLoop_walk root _ _ _ hmsg _ h1
    refine ⟨_, p1, n1.elem, hlast, hw1, ?_⟩
    rw [hlast] at h
    rcases h with h | ⟨final', cands', h2, h⟩
    · exact .inl ((segment_indexError hd1 cands).1 h)
    · obtain ⟨n2, p2, hd2, hp2, hw2, _⟩ := segment_walk hd1 h2
      cases hd : loc.dataElementId with
      | none =>
        rw [hd] at h
        rcases h with h | ⟨r, _, h⟩
        · cases h
        · exact absurd (pyOne_error h).1 (by simp)
      | some d =>
        rw [hd] at h
        rcases h with h | ⟨r, _, h⟩
        · exact .inr ⟨d, p2, n2.elem, rfl, hw2, (field_indexError hd2 cands').1 h⟩
        · exact absurd (pyOne_error h).1 (by simp)
  · rintro (h | ⟨layer, p1, class_, hl, hw, h⟩)
    · exact .inl h
    rcases walk_layerLoop_any root _ _ _ hmsg [] hw with ⟨⟨final, cands⟩, h1⟩ | h1
    · obtain ⟨n1, hd1, hc1, p1', hp1, hw1⟩ := layerLoop_walk root _ _ _ hmsg _ h1
      obtain ⟨rfl, rfl⟩ := walk_unique hw hw1
      refine .inr ⟨final, cands, h1, ?_⟩
      rw [hl]
      cases h2 : migSegmentStep root loc.segmentCode (some layer) final cands with
      | error e => exact .inl (by rw [segment_no_valueError h2])
      | ok p =>
        obtain ⟨final', cands'⟩ := p
        refine .inr ⟨final', cands', rfl, .inl ?_⟩
        rcases h with h | ⟨d, p2, seg, hd, hs, hf⟩
        · rw [(segment_indexError hd1 cands).2 h] at h2; cases h2
        · obtain ⟨n2, p2', hd2, hp2, hw2, _⟩ := segment_walk hd1 h2
          obtain ⟨rfl, rfl⟩ := segmentWalk_unique hs hw2
          rw [hd]
          exact (field_indexError hd2 cands').2 hf
    · exact .inl ((layerLoop_indexError root loc.layers _ _ hmsg []).1 h1)

end Verif
