import Verif.Spec.MigXml
/-!
# Lemmas about `str.lower` and comparable names
-/

namespace Verif

/-- a character that `lower` leaves alone -/
def LowerFixed (c : Char) : Prop := lowerChar c = [c] ∧ c.toNat ≠ 0x3A3

instance instDecLowerFixed (c : Char) : Decidable (LowerFixed c) := inferInstanceAs (Decidable (_ ∧ _))

/-- the shifted range is disjoint from the range -/
def disjointFrom (e : Nat × Nat × Nat × Int) (x y t : Nat) : Bool :=
  decide ((e.2.1 : Int) + e.2.2.2 < x) || decide ((y : Int) < e.1 + e.2.2.2) ||
    (decide (t = 2) && (decide (e.2.2.1 = 2) || decide (e.1 = e.2.1)) && decide (((e.1 : Int) + e.2.2.2 - x) % 2 = 1))

theorem lowerMap_disjoint : lowerMap.all (fun e => disjointFrom e 0x130 0x130 2 && lowerMap.all fun f => disjointFrom e f.1 f.2.1 f.2.2.1) = true := by
  decide +kernel

theorem lowerMap_valid : lowerMap.all (fun e => decide (0 ≤ (e.1 : Int) + e.2.2.2) && (decide ((e.2.1 : Int) + e.2.2.2 < 0xD800) ||
    (decide ((0xE000 : Int) ≤ e.1 + e.2.2.2) && decide ((e.2.1 : Int) + e.2.2.2 < 0x110000)))) = true := by
  decide +kernel

theorem not_in_of_disjoint {e : Nat × Nat × Nat × Int} {x y t n m : Nat} (h : disjointFrom e x y t = true) (h1 : e.1 ≤ n) (h2 : n ≤ e.2.1)
    (h3 : (n - e.1) % e.2.2.1 = 0) (hm : (m : Int) = n + e.2.2.2) : ¬ (x ≤ m ∧ m ≤ y ∧ (m - x) % t = 0) := by
  rintro ⟨h4, h5, h6⟩
  simp only [disjointFrom, Bool.or_eq_true, Bool.and_eq_true, decide_eq_true_eq] at h
  rcases h with (h | h) | ⟨⟨rfl, h | h⟩, h'⟩
  · omega
  · omega
  · rw [h] at h3; omega
  · omega

/-- the test in the table of `lower` -/
abbrev inEntry (n : Nat) (e : Nat × Nat × Nat × Int) : Bool := e.1 ≤ n && n ≤ e.2.1 && (n - e.1) % e.2.2.1 == 0

theorem inEntry_iff (n : Nat) (e : Nat × Nat × Nat × Int) : inEntry n e = true ↔ e.1 ≤ n ∧ n ≤ e.2.1 ∧ (n - e.1) % e.2.2.1 = 0 := by
  simp [inEntry, and_assoc]

theorem lowerChar_def (c : Char) : lowerChar c = if c.toNat = 0x130 then [Char.ofNat 0x69, Char.ofNat 0x307]
    else match lowerMap.find? (inEntry c.toNat) with
      | some e => [Char.ofNat (c.toNat + e.2.2.2).toNat]
      | none => [c] := by
  unfold lowerChar
  by_cases h : c.toNat = 0x130
  · rw [if_pos h, if_pos h]
  · rw [if_neg h, if_neg h]
    show (match lowerMap.find? (inEntry c.toNat) with
      | some (_, _, _, d) => [Char.ofNat (c.toNat + d).toNat]
      | none => [c]) = _
    cases lowerMap.find? (inEntry c.toNat) <;> rfl

theorem toNat_ofNat {n : Nat} (h : n < 0xD800 ∨ (0xE000 ≤ n ∧ n < 0x110000)) : (Char.ofNat n).toNat = n := by
  have hv : n.isValidChar := by rcases h with h | ⟨h1, h2⟩; · exact .inl h
                                · exact .inr ⟨by omega, h2⟩
  unfold Char.ofNat
  rw [dif_pos hv]
  rfl

theorem sigma_in : ∃ e ∈ lowerMap, inEntry 0x3A3 e = true := by decide +kernel

theorem fixed_of_none {c : Char} (h0 : c.toNat ≠ 0x130) (h : ∀ e ∈ lowerMap, inEntry c.toNat e = false) : LowerFixed c := by
  refine ⟨?_, ?_⟩
  · rw [lowerChar_def, if_neg h0, List.find?_eq_none.2 (fun e he => by rw [h e he]; simp)]
  · intro hs
    obtain ⟨e, he, hin⟩ := sigma_in
    rw [← hs, h e he] at hin
    cases hin

theorem lowerChar_fixed (c : Char) : ∀ d ∈ lowerChar c, LowerFixed d := by
  intro d hd
  rw [lowerChar_def] at hd
  split at hd
  · have : ∀ d ∈ [Char.ofNat 0x69, Char.ofNat 0x307], LowerFixed d := by decide +kernel
    exact this d hd
  · rename_i h0
    cases hf : lowerMap.find? (inEntry c.toNat) with
    | none =>
      rw [hf, List.mem_singleton] at hd
      subst hd
      exact fixed_of_none h0 (fun e he => by simpa using List.find?_eq_none.1 hf e he)
    | some e =>
      rw [hf, List.mem_singleton] at hd
      have he := List.mem_of_find?_eq_some hf
      have hin := (inEntry_iff _ _).1 (List.find?_some hf)
      have hdis := List.all_eq_true.1 lowerMap_disjoint e he
      rw [Bool.and_eq_true] at hdis
      have hval := List.all_eq_true.1 lowerMap_valid e he
      simp only [Bool.and_eq_true, Bool.or_eq_true, decide_eq_true_eq] at hval
      obtain ⟨h1, h2, h3⟩ := hin
      have hm : (((c.toNat : Int) + e.2.2.2).toNat : Int) = c.toNat + e.2.2.2 := Int.toNat_of_nonneg (by omega)
      have ht : d.toNat = ((c.toNat : Int) + e.2.2.2).toNat := by
        rw [hd]
        apply toNat_ofNat
        rcases hval.2 with h | ⟨h, h'⟩
        · exact .inl (by omega)
        · exact .inr ⟨by omega, by omega⟩
      apply fixed_of_none
      · have := not_in_of_disjoint hdis.1 h1 h2 h3 hm
        rw [ht]
        intro h
        apply this
        omega
      · intro f hf'
        rw [Bool.eq_false_iff, ne_eq, inEntry_iff, ht]
        exact not_in_of_disjoint (List.all_eq_true.1 hdis.2 f hf') h1 h2 h3 hm

theorem lowerAux_fixed (before s : PyStr) : ∀ d ∈ lowerAux before s, LowerFixed d := by
  induction s generalizing before with
  | nil => intro d hd; cases hd
  | cons c s ih =>
    intro d hd
    rw [lowerAux, List.mem_append] at hd
    rcases hd with hd | hd
    · split at hd
      · have h : ∀ d ∈ [Char.ofNat 0x3C2, Char.ofNat 0x3C3], LowerFixed d := by decide +kernel
        split at hd
        · exact h d (by simp only [List.mem_singleton] at hd; simp [hd])
        · exact h d (by simp only [List.mem_singleton] at hd; simp [hd])
      · exact lowerChar_fixed c d hd
    · exact ih _ d hd

theorem lowerAux_no_sigma (before s : PyStr) (h : ∀ c ∈ s, c.toNat ≠ 0x3A3) : lowerAux before s = s.flatMap lowerChar := by
  induction s generalizing before with
  | nil => rfl
  | cons c s ih =>
    rw [lowerAux, if_neg (h c (by simp)), ih _ (fun x hx => h x (by simp [hx]))]
    rfl

theorem lower_of_fixed {s : PyStr} (h : ∀ c ∈ s, LowerFixed c) : lower s = s := by
  unfold lower
  rw [lowerAux_no_sigma _ _ (fun c hc => (h c hc).2)]
  induction s with
  | nil => rfl
  | cons c s ih =>
    rw [List.flatMap_cons, (h c (by simp)).1, ih (fun x hx => h x (by simp [hx]))]
    rfl

theorem lower_fixed (s : PyStr) : ∀ d ∈ lower s, LowerFixed d := lowerAux_fixed [] s

theorem lower_idem (s : PyStr) : lower (lower s) = lower s := lower_of_fixed (lower_fixed s)

/-! ## comparable names -/

theorem comparable_eq (s : PyStr) : makeNameComparable s = (lower s).flatMap squeeze := by
  unfold makeNameComparable replaceChar
  rw [List.flatMap_assoc, List.flatMap_assoc, List.flatMap_assoc]
  congr 1
  funext c
  unfold squeeze
  by_cases h1 : c = 'ß'
  · subst h1; decide
  · by_cases h2 : c = ' '
    · subst h2; decide
    · by_cases h3 : c = '-'
      · subst h3; decide
      · by_cases h4 : c = '\n'
        · subst h4; decide
        · simp [h1, h2, h3, h4]

theorem squeeze_mem {c d : Char} (h : d ∈ squeeze c) : (d = 's' ∨ d = c) ∧ d ≠ ' ' ∧ d ≠ '-' ∧ d ≠ '\n' ∧ d ≠ 'ß' := by
  unfold squeeze at h
  split at h
  · cases h
  · rename_i h1
    simp only [not_or] at h1
    split at h
    · simp only [List.mem_cons, List.not_mem_nil, or_false, or_self] at h
      subst h
      exact ⟨.inl rfl, by decide⟩
    · rename_i h2
      simp only [List.mem_singleton] at h
      subst h
      exact ⟨.inr rfl, h1.1, h1.2.1, h1.2.2, h2⟩

theorem comparable_mem {s : PyStr} {d : Char} (h : d ∈ makeNameComparable s) :
    LowerFixed d ∧ d ≠ ' ' ∧ d ≠ '-' ∧ d ≠ '\n' ∧ d ≠ 'ß' := by
  rw [comparable_eq, List.mem_flatMap] at h
  obtain ⟨c, hc, hd⟩ := h
  obtain ⟨h1, h2⟩ := squeeze_mem hd
  refine ⟨?_, h2⟩
  rcases h1 with rfl | rfl
  · decide +kernel
  · exact lower_fixed s d hc

theorem comparable_idem (s : PyStr) : makeNameComparable (makeNameComparable s) = makeNameComparable s := by
  rw [comparable_eq (makeNameComparable s), lower_of_fixed (fun c hc => (comparable_mem hc).1)]
  have : ∀ c ∈ makeNameComparable s, squeeze c = [c] := by
    intro c hc
    obtain ⟨_, h1, h2, h3, h4⟩ := comparable_mem hc
    simp [squeeze, h1, h2, h3, h4]
  rw [List.flatMap_congr this]
  simp

theorem comparable_no_sigma (s : PyStr) (h : ∀ c ∈ s, c.toNat ≠ 0x3A3) :
    makeNameComparable s = s.flatMap folded := by
  rw [comparable_eq, lower, lowerAux_no_sigma _ _ h, List.flatMap_assoc]; rfl

theorem similar_iff (x y : Option PyStr) : areSimilarNames x y = true ↔
    ((x = none ∨ x = some []) ∧ (y = none ∨ y = some [])) ∨
    ∃ a b, x = some a ∧ y = some b ∧ a ≠ [] ∧ b ≠ [] ∧ makeNameComparable a = makeNameComparable b := by
  have ht : ∀ o : Option PyStr, (truthy o = false ↔ (o = none ∨ o = some [])) ∧ (truthy o = true ↔ ∃ a, o = some a ∧ a ≠ []) := by
    rintro (_ | _ | ⟨c, s⟩) <;> simp [truthy]
  unfold areSimilarNames
  cases hx : truthy x <;> cases hy : truthy y
  · have h1 := (ht x).1.1 hx
    have h2 := (ht y).1.1 hy
    simp [h1, h2]
  · have h1 := (ht x).1.1 hx
    obtain ⟨b, rfl, hb⟩ := (ht y).2.1 hy
    rcases h1 with rfl | rfl <;> simp [hb]
  · have h1 := (ht y).1.1 hy
    obtain ⟨b, rfl, hb⟩ := (ht x).2.1 hx
    rcases h1 with rfl | rfl <;> simp [hb]
  · obtain ⟨a, rfl, ha⟩ := (ht x).2.1 hx
    obtain ⟨b, rfl, hb⟩ := (ht y).2.1 hy
    simp [ha, hb, makeNameComparable?]

/-! ## trees -/

theorem makeTrees_eq (l : List Xml) : makeTreesNamesComparable l = l.map makeTreeNamesComparable := by
  induction l with
  | nil => rw [makeTreesNamesComparable]; rfl
  | cons x l ih => rw [makeTreesNamesComparable, ih]; rfl

theorem children_makeTree (e : Xml) : (makeTreeNamesComparable e).children = e.children.map makeTreeNamesComparable := by
  cases e with
  | elem t a x c => rw [makeTreeNamesComparable, Xml.children, makeTrees_eq]; rfl

theorem attrib_makeTree (e : Xml) : (makeTreeNamesComparable e).attrib = e.attrib.map fun p =>
      if p.1 = py!"name" ∨ p.1 = py!"ahbName" then (p.1, makeNameComparable p.2) else p := by
  cases e; rw [makeTreeNamesComparable]; rfl

theorem renamed_makeTree (e : Xml) : Renamed e (makeTreeNamesComparable e) := by
  refine ⟨?_, ?_, by rw [children_makeTree]; simp, ?_⟩
  · cases e; rw [makeTreeNamesComparable]; rfl
  · cases e; rw [makeTreeNamesComparable]; rfl
  · rw [attrib_makeTree]
    generalize e.attrib = l
    induction l with
    | nil => exact .nil
    | cons p l ih =>
      rw [List.map_cons]
      refine .cons ?_ ih
      by_cases h : p.1 = py!"name" ∨ p.1 = py!"ahbName"
      · simp [h]
      · simp [h]

theorem lineage_makeTree (e : Xml) (p : List Nat) :
    lineage (makeTreeNamesComparable e) p = (lineage e p).map (List.map makeTreeNamesComparable) := by
  induction p generalizing e with
  | nil => rfl
  | cons i p ih =>
    rw [lineage, lineage, children_makeTree, List.getElem?_map]
    cases e.children[i]? with
    | none => rfl
    | some c =>
      simp only [Option.map_some, ih, Option.map_map]
      rfl

mutual
theorem makeTree_idem : ∀ e : Xml, makeTreeNamesComparable (makeTreeNamesComparable e) = makeTreeNamesComparable e
  | .elem t a x c => by
    rw [makeTreeNamesComparable, makeTreeNamesComparable, makeTrees_idem c, List.map_map]
    congr 1
    apply List.map_congr_left
    intro p _
    by_cases h : p.1 = py!"name" ∨ p.1 = py!"ahbName"
    · simp [h, comparable_idem]
    · simp [h]
theorem makeTrees_idem : ∀ l : List Xml, makeTreesNamesComparable (makeTreesNamesComparable l) = makeTreesNamesComparable l
  | [] => by rw [makeTreesNamesComparable, makeTreesNamesComparable]
  | x :: xs => by rw [makeTreesNamesComparable, makeTreesNamesComparable, makeTree_idem x, makeTrees_idem xs]
end

end Verif
