import Verif.Props.DeepTree
import Verif.Props.LocationPrefix
/-!
# C97 Further lines only extend the deep AHB
-/

namespace Verif

theorem groupBy_append {α κ : Type} [DecidableEq κ] (key : α → κ) (xs ys : List α)
    (h : ∀ x y, xs.getLast? = some x → ys.head? = some y → key x ≠ key y) :
    groupBy key (xs ++ ys) = groupBy key xs ++ groupBy key ys := by
  induction xs with
  | nil => rfl
  | cons x xs ih =>
    cases xs with
    | nil =>
      cases ys with
      | nil => rfl
      | cons y ys =>
        have hxy := h x y rfl rfl
        rw [List.cons_append, List.nil_append, groupBy_cons]
        cases hg : groupBy key (y :: ys) with
        | nil => rfl
        | cons r rest =>
          obtain ⟨k, g⟩ := r
          have hk : k = key y := by
            rw [groupBy_cons] at hg
            split at hg
            · cases hg; rfl
            · split at hg
              · rename_i h2; simp only [List.cons.injEq, Prod.mk.injEq] at hg; rw [← hg.1.1]; exact h2.symm
              · cases hg; rfl
          subst hk
          simp only [if_neg hxy]
          rfl
    | cons x' xs =>
      have ih' := ih fun a b ha hb => h a b (by simpa using ha) hb
      rw [List.cons_append, groupBy_cons, ih', groupBy_cons key x (x' :: xs)]
      cases hg : groupBy key (x' :: xs) with
      | nil =>
        exfalso
        have := groupBy_flatten (key := key) (x' :: xs)
        rw [hg] at this
        cases this
      | cons r rest =>
        obtain ⟨k, g⟩ := r
        by_cases hk : key x = k <;> simp [hk]

theorem createdItems_prefix (reader : MigLookup) (posStr : AhbLocation → PyStr) (used : List PyStr) (a b : List Run) :
    createdItems reader posStr used a <+: createdItems reader posStr used (a ++ b) := by
  induction a generalizing used with
  | nil => exact List.nil_prefix
  | cons r a ih => exact List.prefix_append_right_inj _ |>.2 (ih _)

theorem openings_append (reader : MigLookup) (used : List PyStr) (previous : Option (List AhbLocationLayer)) (a b : List Run) :
    ∃ os, openings reader used previous (a ++ b) = openings reader used previous a ++ os := by
  induction a generalizing used previous with
  | nil => exact ⟨_, rfl⟩
  | cons r a ih =>
    obtain ⟨os, h⟩ := ih (r.usedAfter reader used) (if r.isUsed then some r.location.layers else previous)
    refine ⟨os, ?_⟩
    simp only [List.cons_append, openings, h, List.append_assoc]

theorem depthsAfter_prefix (d : Nat) (a b : List Opening) : depthsAfter d a <+: depthsAfter d (a ++ b) := by
  induction a generalizing d with
  | nil => exact List.nil_prefix
  | cons o a ih =>
    simp only [List.cons_append, depthsAfter]
    split
    · exact List.prefix_cons_inj _ |>.2 (ih _)
    · exact List.prefix_rfl

theorem openingDepths_prefix (a b : List Opening) : openingDepths a <+: openingDepths (a ++ b) := by
  cases a with
  | nil => exact List.nil_prefix
  | cons o a => exact List.prefix_cons_inj _ |>.2 (depthsAfter_prefix 1 a b)

/-- **C97** if the lines up to `line`, which has a segment code and a value pool entry, are followed by a line with another location (up to
the qualifier), then the first lines alone can be converted if all lines can, and their deep AHB is the beginning of the deep AHB of all
lines: read from top to bottom and in the depths of the groups, which together determine it (C90). -/
theorem C97_extends (reader : MigLookup) (posStr : AhbLocation → PyStr) (sgh : Sgh) (info : AhbMetaInformation) (p q : List AhbLine) (line : AhbLine)
    (hs : line.segmentCode ≠ none) (hq : line.valuePoolEntry ≠ none)
    (hvalid : ∀ l ∈ p ++ line :: q, NoneOr NotBlank l.ahbExpression)
    (located : List (AhbLine × AhbLocation)) (hloc : determineLocations sgh (p ++ line :: q) = .ok located)
    (hcut : ∀ x y, located[p.length]? = some x → located[p.length + 1]? = some y →
      ¬ (x.2.layers = y.2.layers ∧ x.2.segmentCode = y.2.segmentCode ∧ x.2.dataElementId = y.2.dataElementId))
    (flat' : FlatAhb) (deep : DeepAhb) (h : toDeepAhb reader posStr ⟨info, p ++ line :: q⟩ sgh = .ok (flat', deep)) :
    ∃ flat₁ deep₁, toDeepAhb reader posStr ⟨info, p ++ [line]⟩ sgh = .ok (flat₁, deep₁) ∧ deep₁.ahbMeta = deep.ahbMeta ∧
      documentOrder deep₁.lines <+: documentOrder deep.lines ∧ groupDepths deep₁.lines <+: groupDepths deep.lines := by
  have hloc1 := C94_prefix sgh (p := p) (q := q) hs hq hloc
  obtain ⟨located', st, hl, hst, hres⟩ := toDeepAhb_ok h
  rw [hloc] at hl
  cases hl
  have hruns : runsOf located = runsOf (located.take (p.length + 1)) ++ runsOf (located.drop (p.length + 1)) := by
    conv_lhs => rw [← List.take_append_drop (p.length + 1) located]
    refine groupBy_append _ _ _ fun x y hx hy hk => ?_
    rw [List.head?_drop] at hy
    have hlt : p.length < located.length := by
      have := (List.getElem?_eq_some_iff.1 hy).1
      omega
    rw [List.getLast?_take, if_neg (by omega)] at hx
    simp only [Nat.add_sub_cancel, List.getElem?_eq_getElem hlt, Option.some_or] at hx
    refine hcut x y (by rw [List.getElem?_eq_getElem hlt, hx]) hy ?_
    simp only [removeQualifier, AhbLocation.mk.injEq] at hk
    exact ⟨hk.1, hk.2.1, hk.2.2.1⟩
  rw [hruns, List.foldlM_append] at hst
  cases h1 : (runsOf (located.take (p.length + 1))).foldlM (deepStep reader posStr) DeepState.init with
  | error e => rw [h1] at hst; cases hst
  | ok st₁ =>
    have hdeep₁ : toDeepAhb reader posStr ⟨info, p ++ [line]⟩ sgh =
        .ok (⟨{ info with mausVersion := some mausVersion }, p ++ [line]⟩, ⟨{ info with mausVersion := some mausVersion }, st₁.lines⟩) := by
      unfold runsOf at h1
      simp only [toDeepAhb, hloc1, bind, Except.bind, h1]
      rfl
    refine ⟨_, _, hdeep₁, ?_, ?_⟩
    · cases hres; rfl
    · obtain ⟨l₁, g1, -, g2, g3⟩ := toDeepAhb_describes (flat := ⟨info, p ++ [line]⟩) (fun l hl => hvalid l (by
        rcases List.mem_append.1 hl with hl | hl
        · simp [hl]
        · simp at hl; simp [hl])) hdeep₁
      obtain ⟨l₂, k1, -, k2, k3⟩ := toDeepAhb_describes (flat := ⟨info, p ++ line :: q⟩) hvalid h
      rw [hloc1] at g1
      rw [hloc] at k1
      cases g1
      cases k1
      rw [g2, g3, k2, k3, hruns]
      refine ⟨createdItems_prefix _ _ _ _ _, ?_⟩
      obtain ⟨os, ho⟩ := openings_append reader [] none (runsOf (located.take (p.length + 1))) (runsOf (located.drop (p.length + 1)))
      rw [ho]
      exact openingDepths_prefix _ _

/-! ## example -/

/-- the example, cut behind the first group of the sender -/
example : ∃ p line q located, exLines = p ++ line :: q ∧ line.segmentCode ≠ none ∧ line.valuePoolEntry ≠ none ∧
    determineLocations exSgh exLines = .ok located ∧
    (∀ x y, located[p.length]? = some x → located[p.length + 1]? = some y →
      ¬ (x.2.layers = y.2.layers ∧ x.2.segmentCode = y.2.segmentCode ∧ x.2.dataElementId = y.2.dataElementId)) ∧
    (toDeepAhb exReader exPosStr ⟨exFlat.ahbMeta, exLines⟩ exSgh).toOption.isSome := by
  obtain ⟨located, h⟩ : ∃ located, determineLocations exSgh exLines = .ok located :=
    match h : determineLocations exSgh exLines with
    | .ok l => ⟨l, rfl⟩
    | .error _ => by
      have h2 : (determineLocations exSgh exLines).toOption.isSome = true := by decide +kernel
      rw [h] at h2
      cases h2
  refine ⟨exLines.take 5, exLines[5]'(by decide +kernel), exLines.drop 6, located, by decide +kernel, by decide +kernel, by decide +kernel, h,
    ?_, by decide +kernel⟩
  have key : ((determineLocations exSgh exLines).toOption.bind fun l => (l[5]?).bind fun x => (l[6]?).map fun y =>
      decide (x.2.layers = y.2.layers ∧ x.2.segmentCode = y.2.segmentCode ∧ x.2.dataElementId = y.2.dataElementId)) = some false := by
    decide +kernel
  intro x y hx hy hxy
  have hlen : (exLines.take 5).length = 5 := by decide +kernel
  rw [hlen] at hx hy
  rw [h] at key
  simp [Except.toOption, hx, hy, hxy] at key

end Verif
