import Verif.Spec.Sgh
import Verif.Proofs.List
/-! helper lemmas about segment group hierarchies -/

namespace Verif
namespace Sgh

mutual
theorem induct_aux {P : Sgh → Prop} (h : ∀ s : Sgh, (∀ c ∈ s.children, P c) → P s) : ∀ s, P s
  | mk k o sub => h _ (by simpa [children, subHierarchy] using inductO_aux h sub)
theorem inductO_aux {P : Sgh → Prop} (h : ∀ s : Sgh, (∀ c ∈ s.children, P c) → P s) :
    ∀ (o : Option (List Sgh)), ∀ c ∈ o.getD [], P c
  | none => by simp
  | some l => by simpa using inductL_aux h l
theorem inductL_aux {P : Sgh → Prop} (h : ∀ s : Sgh, (∀ c ∈ s.children, P c) → P s) :
    ∀ (l : List Sgh), ∀ c ∈ l, P c
  | [] => by simp
  | s :: l => by
    have h1 := induct_aux h s
    have h2 := inductL_aux h l
    simp only [List.mem_cons]
    rintro c (rfl | hc)
    · exact h1
    · exact h2 c hc
end

/-- induction over the tree -/
theorem induct {P : Sgh → Prop} (h : ∀ s : Sgh, (∀ c ∈ s.children, P c) → P s) (s : Sgh) : P s := induct_aux h s

theorem flattenedList_eq (l : List Sgh) : flattenedList l = l.flatMap flattened := by
  induction l with
  | nil => simp [flattenedList]
  | cons s l ih => simp [flattenedList, ih]

theorem flattened_eq (s : Sgh) :
    flattened s = (s.segmentGroup, s.openingSegment) :: s.children.flatMap flattened := by
  cases s with
  | mk k o sub => cases sub <;>
      simp [flattened, flattenedOpt, segmentGroup, openingSegment, children, subHierarchy, flattenedList_eq]

theorem isBelowList_eq (l : List Sgh) (k) :
    isHierarchicallyBelowList l k = true ↔ ∃ c ∈ l, c.segmentGroup = k ∨ isHierarchicallyBelow c k = true := by
  induction l with
  | nil => simp [isHierarchicallyBelowList]
  | cons s l ih =>
    simp only [isHierarchicallyBelowList]
    split
    · simp_all
    · split <;> simp_all

theorem isBelow_iff (s : Sgh) (k) :
    isHierarchicallyBelow s k = true ↔ ∃ c ∈ s.children, c.segmentGroup = k ∨ isHierarchicallyBelow c k = true := by
  cases s with
  | mk k o sub => cases sub <;>
      simp [isHierarchicallyBelow, isHierarchicallyBelowOpt, children, subHierarchy, isBelowList_eq]

theorem sgBelowList_iff (l : List Sgh) (x y) :
    sgIsHierarchicallyBelowList l x y = true ↔ ∃ c ∈ l, sgIsHierarchicallyBelow c x y = true := by
  induction l with
  | nil => simp [sgIsHierarchicallyBelowList]
  | cons s l ih =>
    simp only [sgIsHierarchicallyBelowList]
    split <;> simp_all

theorem sgBelow_iff (s : Sgh) (x y) :
    sgIsHierarchicallyBelow s x y = true ↔
      x ≠ y ∧ ((s.segmentGroup = y ∧ x ∈ (flattened s).map Prod.fst) ∨
        ∃ c ∈ s.children, sgIsHierarchicallyBelow c x y = true) := by
  cases s with
  | mk k o sub =>
    simp only [sgIsHierarchicallyBelow, segmentGroup]
    split
    · simp_all
    · split
      · next h1 h2 => exact ⟨fun _ => ⟨h1, Or.inl h2⟩, fun _ => rfl⟩
      · cases sub <;> simp_all [sgIsHierarchicallyBelowOpt, children, subHierarchy, sgBelowList_iff]

@[simp] theorem at?_nil (s : Sgh) : s.at? [] = some s := rfl

theorem at?_cons (s : Sgh) (i a) : s.at? (i :: a) = (s.children[i]?).bind fun c => c.at? a := rfl

theorem at?_append (s : Sgh) (a b) : s.at? (a ++ b) = (s.at? a).bind fun c => c.at? b := by
  induction a generalizing s with
  | nil => simp
  | cons i a ih =>
    simp only [List.cons_append, at?_cons]
    cases s.children[i]? <;> simp [ih]

/-- every group in a hierarchy is at some address, keys listed by `flattened` -/
theorem mem_flattened_fst (s : Sgh) (k) : k ∈ (flattened s).map Prod.fst ↔ ∃ a, s.keyAt? a = some k := by
  induction s using induct with
  | h s ih =>
    rw [flattened_eq]
    simp only [List.map_cons, List.mem_cons, List.map_flatMap, List.mem_flatMap]
    constructor
    · rintro (rfl | ⟨c, hc, hk⟩)
      · exact ⟨[], rfl⟩
      · obtain ⟨a, ha⟩ := (ih c hc).1 hk
        obtain ⟨i, hi⟩ := List.mem_iff_getElem?.1 hc
        exact ⟨i :: a, by simpa [keyAt?, at?_cons, hi] using ha⟩
    · rintro ⟨a, ha⟩
      cases a with
      | nil => left; simpa [keyAt?] using ha.symm
      | cons i a =>
        right
        simp only [keyAt?, at?_cons] at ha
        cases hi : s.children[i]? with
        | none => simp [hi] at ha
        | some c =>
          have hc := List.mem_iff_getElem?.2 ⟨i, hi⟩
          exact ⟨c, hc, (ih c hc).2 ⟨a, by simpa [hi, keyAt?] using ha⟩⟩

/-- all addresses of a hierarchy in document order -/
def addrs (s : Sgh) : List (List Nat) :=
  match s with
  | mk _ _ none => [[]]
  | mk _ _ (some l) => [] :: go 0 l
where
  go : Nat → List Sgh → List (List Nat)
    | _, [] => []
    | i, c :: l => (addrs c).map (i :: ·) ++ go (i + 1) l

theorem addrs_go_eq (i : Nat) (l : List Sgh) :
    addrs.go i l = (l.zipIdx i).flatMap fun p => (addrs p.1).map (p.2 :: ·) := by
  induction l generalizing i with
  | nil => simp [addrs.go]
  | cons c l ih => simp [addrs.go, ih]

theorem addrs_eq (s : Sgh) : addrs s = [] :: s.children.zipIdx.flatMap fun p => (addrs p.1).map (p.2 :: ·) := by
  cases s with
  | mk k o sub => cases sub <;> simp [addrs, children, subHierarchy, addrs_go_eq]

theorem mem_addrs (s : Sgh) (a) : a ∈ addrs s ↔ (s.at? a).isSome := by
  induction s using induct generalizing a with
  | h s ih =>
    rw [addrs_eq]
    cases a with
    | nil => simp
    | cons i a =>
      simp only [List.mem_cons, reduceCtorEq, List.mem_flatMap, List.mem_map, List.cons.injEq, false_or, at?_cons]
      constructor
      · rintro ⟨⟨c, j⟩, hp, b, hb, rfl, rfl⟩
        have := List.mem_zipIdx_iff_getElem?.1 hp
        simp only at this hb
        simp [this, (ih c (List.mem_iff_getElem?.2 ⟨_, this⟩) b).1 hb]
      · intro h
        cases hi : s.children[i]? with
        | none => simp [hi] at h
        | some c =>
          simp only [hi, Option.bind_some] at h
          exact ⟨(c, i), List.mem_zipIdx_iff_getElem?.2 hi, a, (ih c (List.mem_iff_getElem?.2 ⟨_, hi⟩) a).2 h, rfl, rfl⟩

theorem addrs_sorted (s : Sgh) : (addrs s).Pairwise (· < ·) := by
  induction s using induct with
  | h s ih =>
    rw [addrs_eq, List.pairwise_cons]
    refine ⟨?_, ?_⟩
    · intro a ha
      simp only [List.mem_flatMap, List.mem_map] at ha
      obtain ⟨p, _, b, _, rfl⟩ := ha
      simp
    · have key : ∀ (l : List Sgh) (i : Nat), (∀ c ∈ l, (addrs c).Pairwise (· < ·)) →
          ((l.zipIdx i).flatMap fun p => (addrs p.1).map (p.2 :: ·)).Pairwise (· < ·) := by
        intro l
        induction l with
        | nil => simp
        | cons c l ihl =>
          intro i hl
          simp only [List.zipIdx_cons, List.flatMap_cons, List.pairwise_append]
          refine ⟨?_, ihl _ (fun c hc => hl c (by simp [hc])), ?_⟩
          · rw [List.pairwise_map]
            refine (hl c (by simp)).imp ?_
            intro a b hab
            simpa using hab
          · intro a ha b hb
            simp only [List.mem_map, List.mem_flatMap] at ha hb
            obtain ⟨a', _, rfl⟩ := ha
            obtain ⟨p, hp, b', _, rfl⟩ := hb
            have := (List.mem_zipIdx hp).1
            rw [List.cons_lt_cons_iff]
            left; omega
      exact key _ 0 (fun c hc => ih c hc)

theorem flattened_addrs (s : Sgh) :
    (flattened s).map some = (addrs s).map fun a => (s.at? a).map fun g => (g.segmentGroup, g.openingSegment) := by
  induction s using induct with
  | h s ih =>
    rw [flattened_eq, addrs_eq]
    simp only [List.map_cons, at?_nil, Option.map_some, List.map_flatMap, List.map_map]
    congr 1
    have key : ∀ (l : List Sgh) (i : Nat), (∀ c ∈ l, c ∈ s.children) →
        (∀ j, l[j]? = s.children[i + j]? ∨ l[j]? = none) →
        l.flatMap (fun a => List.map some a.flattened) =
        (l.zipIdx i).flatMap (fun p => List.map ((fun a => Option.map (fun g => (g.segmentGroup, g.openingSegment)) (s.at? a)) ∘ fun x => p.2 :: x) (addrs p.1)) := by
      intro l
      induction l with
      | nil => simp
      | cons c l ihl =>
        intro i hmem hidx
        simp only [List.flatMap_cons, List.zipIdx_cons]
        rw [ihl (i + 1) (fun c hc => hmem c (by simp [hc]))
          (fun j => by have := hidx (j + 1); simpa [Nat.add_assoc, Nat.add_comm 1] using this)]
        congr 1
        rw [ih c (hmem c (by simp))]
        apply List.map_congr_left
        intro a _
        have h0 := hidx 0
        simp only [List.getElem?_cons_zero, Nat.add_zero] at h0
        rcases h0 with h0 | h0
        · simp [at?_cons, ← h0]
        · simp at h0
    exact key s.children 0 (fun _ h => h) (fun j => by simp)

theorem isBelow_addr (s : Sgh) (k) : isHierarchicallyBelow s k = true ↔ ∃ a, a ≠ [] ∧ s.keyAt? a = some k := by
  induction s using induct with
  | h s ih =>
    rw [isBelow_iff]
    constructor
    · rintro ⟨c, hc, h | h⟩
      · obtain ⟨i, hi⟩ := List.mem_iff_getElem?.1 hc
        exact ⟨[i], by simp, by simp [keyAt?, at?_cons, hi, h]⟩
      · obtain ⟨a, _, ha⟩ := (ih c hc).1 h
        obtain ⟨i, hi⟩ := List.mem_iff_getElem?.1 hc
        exact ⟨i :: a, by simp, by simpa [keyAt?, at?_cons, hi] using ha⟩
    · rintro ⟨a, hne, ha⟩
      cases a with
      | nil => exact absurd rfl hne
      | cons i a =>
        simp only [keyAt?, at?_cons] at ha
        cases hi : s.children[i]? with
        | none => simp [hi] at ha
        | some c =>
          have hc := List.mem_iff_getElem?.2 ⟨i, hi⟩
          refine ⟨c, hc, ?_⟩
          simp only [hi, Option.bind_some] at ha
          cases a with
          | nil => left; simpa using ha
          | cons j a => right; exact (ih c hc).2 ⟨j :: a, by simp, ha⟩

theorem sgBelow_addr (s : Sgh) (x y) :
    sgIsHierarchicallyBelow s x y = true ↔ x ≠ y ∧ s.StrictlyBelow x y := by
  induction s using induct with
  | h s ih =>
    rw [sgBelow_iff]
    constructor
    · rintro ⟨hxy, ⟨hk, hm⟩ | ⟨c, hc, h⟩⟩
      · refine ⟨hxy, ?_⟩
        obtain ⟨a, ha⟩ := (mem_flattened_fst s x).1 hm
        refine ⟨[], a, ?_, by simp [keyAt?, hk], by simpa using ha⟩
        rintro rfl
        apply hxy
        simp [keyAt?] at ha
        rw [← ha, hk]
      · obtain ⟨i, hi⟩ := List.mem_iff_getElem?.1 hc
        obtain ⟨_, a, b, hb, h1, h2⟩ := (ih c hc).1 h
        exact ⟨hxy, i :: a, b, hb, by simpa [keyAt?, at?_cons, hi] using h1,
          by simpa [keyAt?, at?_cons, hi] using h2⟩
    · rintro ⟨hxy, a, b, hb, h1, h2⟩
      refine ⟨hxy, ?_⟩
      cases a with
      | nil =>
        left
        refine ⟨by simpa [keyAt?] using h1, (mem_flattened_fst s x).2 ⟨b, by simpa using h2⟩⟩
      | cons i a =>
        right
        cases hi : s.children[i]? with
        | none => simp [keyAt?, at?_cons, hi] at h1
        | some c =>
          have hc := List.mem_iff_getElem?.2 ⟨i, hi⟩
          refine ⟨c, hc, (ih c hc).2 ⟨hxy, a, b, hb, ?_, ?_⟩⟩
          · simpa [keyAt?, at?_cons, hi] using h1
          · simpa [keyAt?, at?_cons, hi] using h2

theorem keyAt?_some {s : Sgh} {a k} : s.keyAt? a = some k ↔ ∃ g, s.at? a = some g ∧ g.segmentGroup = k := by
  simp [keyAt?]

theorem KeysDistinct.keyAt_inj {s : Sgh} (h : s.KeysDistinct) {a b k} (ha : s.keyAt? a = some k)
    (hb : s.keyAt? b = some k) : a = b := by
  obtain ⟨g, hg, hgk⟩ := keyAt?_some.1 ha
  obtain ⟨g', hg', hgk'⟩ := keyAt?_some.1 hb
  exact h a b g g' hg hg' (by rw [hgk, hgk'])

end Sgh
end Verif
