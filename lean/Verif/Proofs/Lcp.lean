import Verif.Model.Navigation
/-! longest common prefixes -/

namespace Verif

/-- longest common prefix -/
def lcp {α : Type} [DecidableEq α] : List α → List α → List α
  | x :: xs, y :: ys => if x = y then x :: lcp xs ys else []
  | _, _ => []

section
variable {α : Type} [DecidableEq α]

theorem lcp_prefix_left (a b : List α) : lcp a b <+: a := by
  induction a generalizing b with
  | nil => simp [lcp]
  | cons x xs ih =>
    cases b with
    | nil => simp [lcp]
    | cons y ys =>
      simp only [lcp]; split
      · simpa using ih ys
      · simp

theorem lcp_comm (a b : List α) : lcp a b = lcp b a := by
  induction a generalizing b with
  | nil => cases b <;> simp [lcp]
  | cons x xs ih =>
    cases b with
    | nil => simp [lcp]
    | cons y ys =>
      simp only [lcp, eq_comm (a := y)]; split
      · next h => subst h; rw [ih]
      · rfl

theorem lcp_prefix_right (a b : List α) : lcp a b <+: b := lcp_comm a b ▸ lcp_prefix_left b a

theorem lcp_greatest {a b q : List α} (h1 : q <+: a) (h2 : q <+: b) : q <+: lcp a b := by
  induction q generalizing a b with
  | nil => simp
  | cons z q ih =>
    obtain ⟨ta, rfl⟩ := h1
    obtain ⟨tb, rfl⟩ := h2
    simpa [lcp] using ih (List.prefix_append q ta) (List.prefix_append q tb)

theorem lcp_append (p a b : List α) : lcp (p ++ a) (p ++ b) = p ++ lcp a b := by
  induction p with
  | nil => rfl
  | cons x p ih => simp [lcp, ih]

theorem lcp_self (a : List α) : lcp a a = a := by
  induction a with
  | nil => rfl
  | cons x a ih => simp [lcp, ih]

theorem lcp_of_prefix {a b : List α} (h : a <+: b) : lcp a b = a := by
  obtain ⟨t, rfl⟩ := h
  have := lcp_append a [] t
  simpa [lcp] using this

theorem lcp_eq_left_iff {a b : List α} : (lcp a b).length = a.length ↔ a <+: b := by
  constructor
  · intro h
    have h1 := (lcp_prefix_left a b).eq_of_length h
    rw [← h1]; exact lcp_prefix_right a b
  · intro h; rw [lcp_of_prefix h]

/-- the prefix of length `n` of `a` is a prefix of `b` iff `n` does not exceed the common prefix -/
theorem take_prefix_iff {a b : List α} {n : Nat} (hn : n ≤ a.length) :
    a.take n <+: b ↔ n ≤ (lcp a b).length := by
  constructor
  · intro h
    have := (lcp_greatest (List.take_prefix n a) h).length_le
    simpa [Nat.min_eq_left hn] using this
  · intro h
    have h1 : a.take n <+: lcp a b := by
      have h2 := lcp_prefix_left a b
      rw [List.prefix_iff_eq_take] at h2
      rw [h2]
      exact List.take_prefix_take_left h
    exact h1.trans (lcp_prefix_right a b)

theorem lcp_ultra (a b c : List α) : min (lcp a b).length (lcp b c).length ≤ (lcp a c).length := by
  have hb : min (lcp a b).length (lcp b c).length ≤ b.length := by
    have := (lcp_prefix_left b c).length_le; omega
  have h1 : b.take (min (lcp a b).length (lcp b c).length) <+: a := by
    rw [take_prefix_iff hb, lcp_comm b a]; omega
  have h2 : b.take (min (lcp a b).length (lcp b c).length) <+: c := by
    rw [take_prefix_iff hb]; omega
  have := (lcp_greatest h1 h2).length_le
  rw [List.length_take, Nat.min_eq_left hb] at this
  exact this

theorem zipAllEq_iff {a b : List α} (h : a.length ≤ b.length) : zipAllEq a b = true ↔ a <+: b := by
  induction a generalizing b with
  | nil => simp [zipAllEq]
  | cons x a ih =>
    cases b with
    | nil => simp at h
    | cons y b =>
      simp only [List.length_cons] at h
      simp only [zipAllEq, ne_eq, ite_not]
      split
      · next hxy => subst hxy; simpa using ih (by omega)
      · next hxy => simp [hxy]

end

theorem commonLayers_false (x y : List AhbLocationLayer) : commonLayers false x y = lcp x y := by
  induction x generalizing y with
  | nil => simp [commonLayers, lcp]
  | cons a x ih =>
    cases y with
    | nil => simp [commonLayers, lcp]
    | cons b y => simp [commonLayers, lcp, ih]

theorem commonLayers_true (x y : List AhbLocationLayer) :
    commonLayers true x y = x.take (lcp (x.map (·.segmentGroupKey)) (y.map (·.segmentGroupKey))).length := by
  induction x generalizing y with
  | nil => simp [commonLayers]
  | cons a x ih =>
    cases y with
    | nil => simp [commonLayers, lcp]
    | cons b y =>
      simp only [commonLayers, lcp, List.map_cons]
      by_cases hk : a.segmentGroupKey = b.segmentGroupKey
      · simp [hk, ih]
      · have : a ≠ b := fun h => hk (by rw [h])
        simp [hk, this]

theorem commonLayers_prefix (b : Bool) (x y : List AhbLocationLayer) : commonLayers b x y <+: x := by
  cases b with
  | false => rw [commonLayers_false]; exact lcp_prefix_left x y
  | true => rw [commonLayers_true]; exact List.take_prefix _ _

theorem commonLayers_length_le (b : Bool) (x y : List AhbLocationLayer) : (commonLayers b x y).length ≤ y.length := by
  induction x generalizing y with
  | nil => simp [commonLayers]
  | cons a x ih =>
    cases y with
    | nil => simp [commonLayers]
    | cons c y =>
      simp only [commonLayers]
      split
      · simpa using ih y
      · simp

end Verif
