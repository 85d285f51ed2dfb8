import Verif.Spec.DeepAssign
import Verif.Props.Constructors
import Verif.Proofs.DeepOps
/-! lemmas for assignments to attributes of a deep AHB -/

namespace Verif

theorem mapM_option_mem {α β : Type} {f : α → Option β} {l : List α} {r : List β} (h : l.mapM f = some r) :
    ∀ y ∈ r, ∃ x ∈ l, f x = some y := by
  induction l generalizing r with
  | nil =>
    simp only [List.mapM_nil, pure, Option.some.injEq] at h
    subst h
    simp
  | cons a l ih =>
    simp only [List.mapM_cons, bind, Option.bind_eq_some_iff, pure, Option.some.injEq] at h
    obtain ⟨b, hb, r', hr', rfl⟩ := h
    intro y hy
    rcases List.mem_cons.1 hy with rfl | hy
    · exact ⟨a, by simp, hb⟩
    · obtain ⟨x, hx, hf⟩ := ih hr' y hy
      exact ⟨x, by simp [hx], hf⟩

theorem mapM_option_mono {α β : Type} {f g : α → Option β} (hfg : ∀ a b, f a = some b → g a = some b) {l : List α} {r : List β}
    (h : l.mapM f = some r) : l.mapM g = some r := by
  induction l generalizing r with
  | nil => simpa using h
  | cons a l ih =>
    simp only [List.mapM_cons, bind, Option.bind_eq_some_iff, pure, Option.some.injEq] at h ⊢
    obtain ⟨b, hb, r', hr', rfl⟩ := h
    exact ⟨b, hfg a b hb, r', ih hr', rfl⟩

theorem group_mono (o : DeepObj) : ∀ (n r : Nat) (g : SegmentGroup), o.group n r = some g → o.group (n + 1) r = some g := by
  intro n
  induction n with
  | zero => intro r g h; cases h
  | succ n ih =>
    intro r g h
    rw [DeepObj.group] at h ⊢
    cases hg : (o.groups r).segmentGroups with
    | none => rw [hg] at h; exact h
    | some l =>
      rw [hg] at h
      simp only [Option.map_eq_some_iff] at h ⊢
      obtain ⟨gs, hgs, rfl⟩ := h
      exact ⟨gs, mapM_option_mono ih hgs, rfl⟩

theorem value_mono (o : DeepObj) {n : Nat} (k : Nat) {a : DeepAhb} (h : o.value n = some a) : o.value (n + k) = some a := by
  induction k with
  | zero => exact h
  | succ k ih =>
    unfold DeepObj.value at ih ⊢
    simp only [Option.map_eq_some_iff] at ih ⊢
    obtain ⟨gs, hgs, rfl⟩ := ih
    exact ⟨gs, mapM_option_mono (group_mono o (n + k)) hgs, rfl⟩

theorem dataElement_constructed {o : DeepObj} (h : o.Sound) (r : Nat) : (o.dataElement r).Constructed := by
  obtain ⟨h1, h2, h3⟩ := h.dataElements r
  unfold DataElement.Constructed DeepObj.dataElement
  simp only
  cases hk : (o.dataElements r).kind with
  | freeText e => exact ((C88_free_text _ _ _ _ _).1 _).2 ⟨_, _, rfl, rfl, h1, h2, h3 e hk, rfl⟩
  | valuePool p =>
    refine ⟨((C88_value_pool _ _ _ _ _).1 _).2 ⟨_, rfl, h1, h2, rfl⟩, fun e he => ?_⟩
    obtain ⟨i, _, rfl⟩ := List.mem_map.1 he
    exact ((C88_value_pool_entry _ _ _).1 _).2 ⟨rfl, rfl, rfl, h.entries i⟩

theorem segment_constructed {o : DeepObj} (h : o.Sound) (r : Nat) :
    (o.segment r).Constructed ∧ ∀ de ∈ (o.segment r).dataElements, de.Constructed := by
  obtain ⟨h1, h2⟩ := h.segments r
  refine ⟨((C88_segment _ _ _ _ _ _).1 _).2 ⟨_, rfl, h1, h2, rfl⟩, fun de hde => ?_⟩
  obtain ⟨i, _, rfl⟩ := List.mem_map.1 hde
  exact dataElement_constructed h i

theorem group_constructed {o : DeepObj} (h : o.Sound) : ∀ (n r : Nat) (g : SegmentGroup), o.group n r = some g →
    ∀ (a : List Nat) (x : SegmentGroup), g.at? a = some x →
      x.Constructed ∧ ∀ s ∈ x.ownSegments, s.Constructed ∧ ∀ de ∈ s.dataElements, de.Constructed := by
  intro n
  induction n with
  | zero => intro r g h; cases h
  | succ n ih =>
    intro r g hg a x hx
    rw [DeepObj.group] at hg
    have hown : ∀ gs : Option (List SegmentGroup), ∀ x, x = SegmentGroup.mk (o.groups r).discriminator (o.groups r).ahbExpression
        (o.groups r).ahbLineIndex ((o.groups r).segments.map fun l => l.map o.segment) gs →
        x.Constructed ∧ ∀ s ∈ x.ownSegments, s.Constructed ∧ ∀ de ∈ s.dataElements, de.Constructed := by
      rintro gs x rfl
      refine ⟨((C88_group _ _ _ _ _).1 _).2 ⟨_, rfl, h.groups r, rfl⟩, fun s hs => ?_⟩
      unfold SegmentGroup.ownSegments at hs
      simp only [SegmentGroup.segments] at hs
      cases hseg : (o.groups r).segments with
      | none => rw [hseg] at hs; simp at hs
      | some l =>
        rw [hseg] at hs
        obtain ⟨i, _, rfl⟩ := List.mem_map.1 (by simpa using hs)
        exact segment_constructed h i
    cases hgs : (o.groups r).segmentGroups with
    | none =>
      rw [hgs] at hg
      simp only [Option.some.injEq] at hg
      subst hg
      cases a with
      | nil =>
        simp only [SegmentGroup.at?, Option.some.injEq] at hx
        exact hown _ _ hx.symm
      | cons i a => simp [SegmentGroup.at?, SegmentGroup.children, SegmentGroup.segmentGroups] at hx
    | some l =>
      rw [hgs] at hg
      simp only [Option.map_eq_some_iff] at hg
      obtain ⟨gs, hm, rfl⟩ := hg
      cases a with
      | nil =>
        simp only [SegmentGroup.at?, Option.some.injEq] at hx
        exact hown _ _ hx.symm
      | cons i a =>
        simp only [SegmentGroup.at?, SegmentGroup.children, SegmentGroup.segmentGroups, Option.getD_some, Option.bind_eq_some_iff] at hx
        obtain ⟨c, hc, hx⟩ := hx
        obtain ⟨r', _, hr'⟩ := mapM_option_mem hm c (List.mem_of_getElem? hc)
        exact ih r' c hr' a x hx

theorem value_constructed {o : DeepObj} (h : o.Sound) {n : Nat} {a : DeepAhb} (hv : o.value n = some a) : a.Constructed := by
  unfold DeepObj.value at hv
  simp only [Option.map_eq_some_iff] at hv
  obtain ⟨gs, hm, rfl⟩ := hv
  have key : ∀ g, GroupOccurs gs g → g.Constructed ∧ ∀ s ∈ g.ownSegments, s.Constructed ∧ ∀ de ∈ s.dataElements, de.Constructed := by
    rintro g ⟨ad, had⟩
    cases ad with
    | nil => cases had
    | cons i ad =>
      simp only [groupAt?, Option.bind_eq_some_iff] at had
      obtain ⟨c, hc, hx⟩ := had
      obtain ⟨r, _, hr⟩ := mapM_option_mem hm c (List.mem_of_getElem? hc)
      exact group_constructed h n r c hr ad g hx
  exact ⟨((C88_meta _).1).2 h.info, fun g hg => (key g hg).1, fun s ⟨g, hg, hs⟩ => ((key g hg).2 s hs).1,
    fun de ⟨s, ⟨g, hg, hs⟩, hde⟩ => ((key g hg).2 s hs).2 de hde⟩

theorem heapSet_all {α : Type} {P : α → Prop} {heap : Nat → α} (h : ∀ r, P (heap r)) (r : Nat) {x : α} (hx : P x) :
    ∀ i, P (heapSet heap r x i) := by
  intro i
  unfold heapSet
  split
  · exact hx
  · exact h i

theorem noneOr_of_check {v : Option PyStr} (h : ¬ (v.isSome && !isNotBlank v) = true) : NoneOr NotBlank v :=
  Classical.not_not.1 fun hn => h ((noneOr_notBlank v).2 hn)

theorem apply_sound {o : DeepObj} (h : o.Sound) (e : DeepAssign) : (o.apply e).1.Sound := by
  cases e with
  | info a =>
    cases ha : o.ahbMeta.assign a with
    | error x => simpa only [DeepObj.apply, ha] using h
    | ok m =>
      simp only [DeepObj.apply, ha]
      refine { h with info := ?_ }
      obtain ⟨h1, h2⟩ := h.info
      cases a with
      | pruefidentifikator v => cases ha; exact ⟨h1, h2⟩
      | mausVersion v => cases ha; exact ⟨h1, h2⟩
      | description v =>
        simp only [AhbMetaInformation.assign] at ha
        split at ha
        · cases ha
        · cases ha; exact ⟨noneOr_of_check ‹_›, h2⟩
      | direction v =>
        simp only [AhbMetaInformation.assign] at ha
        split at ha
        · cases ha
        · cases ha; exact ⟨h1, noneOr_of_check ‹_›⟩
  | entry r a =>
    cases ha : (o.entries r).assign a with
    | error x => simpa only [DeepObj.apply, ha] using h
    | ok x =>
      simp only [DeepObj.apply, ha]
      refine { h with entries := heapSet_all (P := fun e : ValuePoolEntry => AcceptableQualifier e.qualifier ∧ NotBlank e.ahbExpression) h.entries r ?_ }
      obtain ⟨h1, h2⟩ := h.entries r
      cases a with
      | qualifier v =>
        simp only [ValuePoolEntry.assign] at ha
        split at ha
        · cases ha
        · rename_i hq
          obtain ⟨q, rfl, hq'⟩ := (someOf_qualifier v).1 (by simpa using hq)
          cases ha
          exact ⟨hq', h2⟩
      | meaning v =>
        cases v with
        | none => cases ha
        | some m => cases ha; exact ⟨h1, h2⟩
      | ahbExpression v =>
        simp only [ValuePoolEntry.assign] at ha
        split at ha
        · cases ha
        · rename_i hq
          obtain ⟨q, rfl, hq'⟩ := (someOf_notBlank v).1 (by simpa using hq)
          cases ha
          exact ⟨h1, hq'⟩
  | dataElement r a =>
    cases ha : (o.dataElements r).assign a with
    | error x => simpa only [DeepObj.apply, ha] using h
    | ok x =>
      simp only [DeepObj.apply, ha]
      refine { h with dataElements := heapSet_all (P := fun d : DataElementObj => NoneOr NotBlank d.discriminator ∧ IsFourDigits d.dataElementId ∧
        ∀ e, d.kind = .freeText e → NotBlank e) h.dataElements r ?_ }
      obtain ⟨h1, h2, h3⟩ := h.dataElements r
      cases a with
      | discriminator v =>
        simp only [DataElementObj.assign] at ha
        split at ha
        · cases ha
        · cases ha; exact ⟨noneOr_of_check ‹_›, h2, h3⟩
      | dataElementId v =>
        cases v with
        | none => cases ha
        | some s =>
          simp only [DataElementObj.assign] at ha
          split at ha
          · cases ha
          · rename_i hs
            cases ha
            exact ⟨h1, (dataElement4Re_iff s).1 (by cases hm : dataElement4Re.fullMatch s with
              | none => rw [hm] at hs; exact absurd rfl hs
              | some x => rfl), h3⟩
      | enteredInput v => cases ha; exact ⟨h1, h2, h3⟩
      | valueType v => cases ha; exact ⟨h1, h2, h3⟩
      | ahbExpression v =>
        simp only [DataElementObj.assign] at ha
        cases hk : (o.dataElements r).kind with
        | valuePool p => rw [hk] at ha; cases ha
        | freeText e =>
          rw [hk] at ha
          cases v with
          | none => cases ha
          | some s =>
            simp only at ha
            split at ha
            · cases ha
            · rename_i hs
              cases ha
              refine ⟨h1, h2, fun e he => ?_⟩
              cases he
              exact (notBlank_iff s).1 (by simpa using hs)
      | valuePool p =>
        simp only [DataElementObj.assign] at ha
        cases hk : (o.dataElements r).kind with
        | freeText e => rw [hk] at ha; cases ha
        | valuePool p' =>
          rw [hk] at ha
          cases ha
          exact ⟨h1, h2, fun e he => by cases he⟩
  | segment r a =>
    cases ha : (o.segments r).assign a with
    | error x => simpa only [DeepObj.apply, ha] using h
    | ok x =>
      simp only [DeepObj.apply, ha]
      refine { h with segments := heapSet_all (P := fun s : SegmentObj => NotBlank s.ahbExpression ∧ NoneOr IsFiveDigits s.segmentId) h.segments r ?_ }
      obtain ⟨h1, h2⟩ := h.segments r
      cases a with
      | ahbExpression v =>
        simp only [SegmentObj.assign] at ha
        rcases checkExpression_cases v with ⟨e, rfl, he, hb⟩ | ⟨rfl, hb⟩ | ⟨_, hb⟩
        · rw [hb] at ha; cases ha; exact ⟨he, h2⟩
        · rw [hb] at ha; cases ha
        · rw [hb] at ha; cases ha
      | segmentId v =>
        simp only [SegmentObj.assign] at ha
        split at ha
        · cases ha
        · rename_i hs
          cases ha
          exact ⟨h1, (optMatches_iff segmentId5Re_iff v).1 (by simpa using hs)⟩
      | _ => cases ha; exact ⟨h1, h2⟩
  | group r a =>
    cases ha : (o.groups r).assign a with
    | error x => simpa only [DeepObj.apply, ha] using h
    | ok x =>
      simp only [DeepObj.apply, ha]
      refine { h with groups := heapSet_all (P := fun g : GroupObj => NotBlank g.ahbExpression) h.groups r ?_ }
      have h1 := h.groups r
      cases a with
      | ahbExpression v =>
        simp only [GroupObj.assign] at ha
        rcases checkExpression_cases v with ⟨e, rfl, he, hb⟩ | ⟨rfl, hb⟩ | ⟨_, hb⟩
        · rw [hb] at ha; cases ha; exact he
        · rw [hb] at ha; cases ha
        · rw [hb] at ha; cases ha
      | _ => cases ha; exact h1
  | lines v => exact ⟨h.info, h.entries, h.dataElements, h.segments, h.groups⟩

theorem mapM_option_getElem? {α β : Type} {f : α → Option β} {l : List α} {r : List β} (h : l.mapM f = some r) (i : Nat) :
    (l[i]? = none ∧ r[i]? = none) ∨ ∃ (x : α) (y : β), l[i]? = some x ∧ r[i]? = some y ∧ f x = some y := by
  induction l generalizing r i with
  | nil =>
    simp only [List.mapM_nil, pure, Option.some.injEq] at h
    subst h
    simp
  | cons a l ih =>
    simp only [List.mapM_cons, bind, Option.bind_eq_some_iff, pure, Option.some.injEq] at h
    obtain ⟨b, hb, r', hr', rfl⟩ := h
    cases i with
    | zero => exact .inr ⟨a, b, rfl, rfl, hb⟩
    | succ i =>
      simp only [List.getElem?_cons_succ]
      exact ih hr' i

theorem segment_shown (o : DeepObj) (r : Nat) : o.ShowsSegment r (o.segment r) := by
  refine ⟨rfl, rfl, rfl, rfl, rfl, by simp [DeepObj.segment], ?_⟩
  intro i d de hd hde
  simp only [DeepObj.segment, List.getElem?_map, hd, Option.map_some, Option.some.injEq] at hde
  subst hde
  refine ⟨rfl, rfl, rfl, rfl, fun e he => by simp [DeepObj.dataElement, he], fun p hp => ?_⟩
  refine ⟨p.map o.entries, by simp [DeepObj.dataElement, hp], by simp, fun j x hx => by simp [hx]⟩

theorem group_shown (o : DeepObj) {n r : Nat} {g : SegmentGroup} (h : o.group n r = some g) : o.ShowsGroup r g := by
  cases n with
  | zero => cases h
  | succ n =>
    rw [DeepObj.group] at h
    have key : ∀ gs : Option (List SegmentGroup), (gs = none ↔ (o.groups r).segmentGroups = none) →
        o.ShowsGroup r (.mk (o.groups r).discriminator (o.groups r).ahbExpression (o.groups r).ahbLineIndex
          ((o.groups r).segments.map fun l => l.map o.segment) gs) := by
      intro gs hgs
      refine ⟨rfl, rfl, rfl, by simp [SegmentGroup.segments], hgs, ?_⟩
      intro l ss hl hss
      simp only [SegmentGroup.segments, hl, Option.map_some, Option.some.injEq] at hss
      subst hss
      refine ⟨by simp, fun i s x hs hx => ?_⟩
      simp only [List.getElem?_map, hs, Option.map_some, Option.some.injEq] at hx
      subst hx
      exact segment_shown o s
    cases hg : (o.groups r).segmentGroups with
    | none =>
      rw [hg] at h
      cases h
      exact key none (by simp [hg])
    | some l =>
      rw [hg] at h
      simp only [Option.map_eq_some_iff] at h
      obtain ⟨gs, _, rfl⟩ := h
      exact key (some gs) (by simp [hg])

theorem groups_shown (o : DeepObj) : ∀ (a : List Nat) (n : Nat) (l : List Nat) (gs : List SegmentGroup), l.mapM (o.group n) = some gs →
    (o.follow l a = none ∧ groupAt? gs a = none) ∨
    ∃ (r : Nat) (g : SegmentGroup), o.follow l a = some r ∧ groupAt? gs a = some g ∧ o.ShowsGroup r g := by
  intro a
  induction a with
  | nil => intro n l gs _; exact .inl ⟨rfl, rfl⟩
  | cons i a ih =>
    intro n l gs h
    have hi := mapM_option_getElem? h i
    cases a with
    | nil =>
      simp only [DeepObj.follow, groupAt?]
      rcases hi with ⟨h1, h2⟩ | ⟨r, g, h1, h2, h3⟩
      · exact .inl ⟨h1, by rw [h2]; rfl⟩
      · exact .inr ⟨r, g, h1, by rw [h2]; rfl, group_shown o h3⟩
    | cons j a =>
      simp only [DeepObj.follow, groupAt?]
      rcases hi with ⟨h1, h2⟩ | ⟨r, g, h1, h2, h3⟩
      · exact .inl ⟨by rw [h1]; rfl, by rw [h2]; rfl⟩
      · rw [h1, h2]
        simp only [Option.bind_some]
        cases n with
        | zero => cases h3
        | succ n =>
          rw [DeepObj.group] at h3
          cases hg : (o.groups r).segmentGroups with
          | none =>
            rw [hg] at h3
            cases h3
            exact .inl ⟨rfl, rfl⟩
          | some l' =>
            rw [hg] at h3
            simp only [Option.map_eq_some_iff] at h3
            obtain ⟨gs', hm, rfl⟩ := h3
            exact ih n l' gs' hm

end Verif
