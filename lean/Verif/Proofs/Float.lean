import Mathlib.Algebra.Order.Field.Basic
import Mathlib.Algebra.Order.Field.Power
import Mathlib.Tactic.Linarith
import Mathlib.Tactic.FieldSimp
import Mathlib.Tactic.Ring
import Mathlib.Tactic.Positivity
import Mathlib.Tactic.NormNum
import Verif.Spec.Float
/-! reading decimal numbers: the algorithm finds the nearest double -/

namespace Verif

theorem two_zpow_toNat (k : Int) : (2 : ℚ) ^ k * 2 ^ (-k).toNat = 2 ^ k.toNat := by
  rw [← zpow_natCast, ← zpow_natCast, ← zpow_add₀ (by norm_num)]
  congr 1
  omega

theorem cast_two_pow (k : Nat) : (((2 : Int) ^ k : Int) : ℚ) = 2 ^ k := by rw [Int.cast_pow]; norm_num

theorem pow_971 : (2 : ℚ) ^ 971 = 2 ^ (971 : Int) := (zpow_natCast 2 971).symm

theorem two_zpow_pos (k : Int) : (0 : ℚ) < 2 ^ k := zpow_pos (by norm_num) k

theorem floorLog2_spec {n d : Nat} (hn : n ≠ 0) (hd : d ≠ 0) :
    (2 : ℚ) ^ floorLog2 n d * d ≤ n ∧ (n : ℚ) < 2 ^ (floorLog2 n d + 1) * d := by
  have h1 : ((2 ^ n.log2 : Nat) : ℚ) ≤ n := Nat.cast_le.2 (Nat.log2_self_le hn)
  have h2 : (n : ℚ) < ((2 ^ (n.log2 + 1) : Nat) : ℚ) := Nat.cast_lt.2 Nat.lt_log2_self
  have h3 : ((2 ^ d.log2 : Nat) : ℚ) ≤ d := Nat.cast_le.2 (Nat.log2_self_le hd)
  have h4 : (d : ℚ) < ((2 ^ (d.log2 + 1) : Nat) : ℚ) := Nat.cast_lt.2 Nat.lt_log2_self
  push_cast at h1 h2 h3 h4
  rw [← zpow_natCast] at h1 h2 h3 h4
  push_cast at h2 h4
  unfold floorLog2
  dsimp only
  generalize (n.log2 : Int) = a at *
  generalize (d.log2 : Int) = b at *
  have hup : (n : ℚ) < 2 ^ (a - b + 1) * d := by
    calc (n : ℚ) < 2 ^ (a + 1) := h2
      _ = 2 ^ (a - b + 1) * 2 ^ b := by rw [← zpow_add₀ (by norm_num)]; congr 1; omega
      _ ≤ _ := mul_le_mul_of_nonneg_left h3 (two_zpow_pos _).le
  have hlo : (2 : ℚ) ^ (a - b - 1) * d < n := by
    calc (2 : ℚ) ^ (a - b - 1) * d < 2 ^ (a - b - 1) * 2 ^ (b + 1) := mul_lt_mul_of_pos_left h4 (two_zpow_pos _)
      _ = 2 ^ a := by rw [← zpow_add₀ (by norm_num)]; congr 1; omega
      _ ≤ n := h1
  have hc : d * 2 ^ (a - b).toNat ≤ n * 2 ^ (-(a - b)).toNat ↔ (2 : ℚ) ^ (a - b) * d ≤ n := by
    have hp : (0 : ℚ) < 2 ^ (-(a - b)).toNat := by positivity
    rw [← Nat.cast_le (α := ℚ)]
    push_cast
    rw [← two_zpow_toNat, ← mul_assoc, mul_comm (d : ℚ)]
    exact mul_le_mul_iff_left₀ hp
  split
  · rename_i h
    exact ⟨hc.1 h, hup⟩
  · rename_i h
    rw [hc] at h
    refine ⟨hlo.le, ?_⟩
    rw [show a - b - 1 + 1 = a - b by omega]
    exact lt_of_not_ge h

/-- the nearest integer: no other integer is nearer, and if one is as near, then the result is even -/
theorem roundHalfEven_spec (n : Nat) {d : Nat} (hd : d ≠ 0) : |(n : ℚ) / d - roundHalfEven n d| ≤ 1 / 2 ∧
    (|(n : ℚ) / d - roundHalfEven n d| = 1 / 2 → roundHalfEven n d % 2 = 0) := by
  have hd' : (0 : ℚ) < d := by exact_mod_cast Nat.pos_of_ne_zero hd
  have hm : (n : ℚ) = d * (n / d : Nat) + (n % d : Nat) := by exact_mod_cast (Nat.div_add_mod n d).symm
  have hr : ((n % d : Nat) : ℚ) < d := by exact_mod_cast Nat.mod_lt n (Nat.pos_of_ne_zero hd)
  have hx : (n : ℚ) / d = (n / d : Nat) + ((n % d : Nat) : ℚ) / d := by
    rw [hm, add_div, mul_div_cancel_left₀ _ hd'.ne']
  have hr0 : (0 : ℚ) ≤ ((n % d : Nat) : ℚ) / d := by positivity
  have hr1 : ((n % d : Nat) : ℚ) / d < 1 := (div_lt_one hd').2 hr
  unfold roundHalfEven
  split
  · rename_i h
    have h' : ((n % d : Nat) : ℚ) / d < 1 / 2 := by
      rw [div_lt_div_iff₀ hd' (by norm_num)]
      have : (2 : ℚ) * (n % d : Nat) < d := by exact_mod_cast h
      linarith
    rw [hx, add_sub_cancel_left, abs_of_nonneg hr0]
    exact ⟨h'.le, fun e => absurd e h'.ne⟩
  · split
    · rename_i h
      have h' : 1 / 2 < ((n % d : Nat) : ℚ) / d := by
        rw [div_lt_div_iff₀ (by norm_num) hd']
        have : (d : ℚ) < 2 * (n % d : Nat) := by exact_mod_cast h
        linarith
      rw [hx]
      push_cast
      rw [abs_of_nonpos (by linarith)]
      exact ⟨by linarith, fun e => by linarith⟩
    · rename_i h1 h2
      have h' : ((n % d : Nat) : ℚ) / d = 1 / 2 := by
        rw [div_eq_div_iff hd'.ne' (by norm_num)]
        have : 2 * (n % d) = d := by omega
        have : (2 : ℚ) * (n % d : Nat) = d := by exact_mod_cast this
        linarith
      rw [hx, h']
      rcases Nat.mod_two_eq_zero_or_one (n / d) with h | h
      · rw [h]; push_cast
        refine ⟨by rw [abs_le]; constructor <;> linarith, fun _ => by omega⟩
      · rw [h]; push_cast
        refine ⟨by rw [abs_le]; constructor <;> linarith, fun _ => by omega⟩

theorem roundHalfEven_nearest (n : Nat) {d : Nat} (hd : d ≠ 0) (i : Int) :
    |(n : ℚ) / d - roundHalfEven n d| ≤ |(n : ℚ) / d - i| ∧
    (|(n : ℚ) / d - roundHalfEven n d| = |(n : ℚ) / d - i| → (i : ℚ) = roundHalfEven n d ∨ roundHalfEven n d % 2 = 0) := by
  obtain ⟨h1, h2⟩ := roundHalfEven_spec n hd
  generalize (n : ℚ) / d = x at *
  generalize roundHalfEven n d = m at *
  by_cases he : i = m
  · subst he
    exact ⟨by simp, fun _ => .inl (by simp)⟩
  · have hi : (1 : ℚ) ≤ |(i : ℚ) - m| := by
      have : (1 : Int) ≤ |i - m| := Int.one_le_abs (sub_ne_zero.2 he)
      exact_mod_cast this
    have h3 : |(i : ℚ) - m| ≤ |x - m| + |x - i| := by
      have := abs_sub_le (i : ℚ) x m
      rw [abs_sub_comm (i : ℚ) x] at this
      linarith
    exact ⟨by linarith, fun e => .inr (h2 (by linarith))⟩

theorem lastBit_spec {n d : Nat} (hn : n ≠ 0) (hd : d ≠ 0) :
    -1074 ≤ lastBit n d ∧ (n : ℚ) / d < 2 ^ 53 * 2 ^ lastBit n d ∧ (2 ^ 52 * 2 ^ lastBit n d ≤ (n : ℚ) / d ∨ lastBit n d = -1074) := by
  have hd' : (0 : ℚ) < d := by exact_mod_cast Nat.pos_of_ne_zero hd
  obtain ⟨h1, h2⟩ := floorLog2_spec hn hd
  rw [← le_div_iff₀ hd'] at h1
  rw [← div_lt_iff₀ hd'] at h2
  unfold lastBit
  refine ⟨le_max_right _ _, h2.trans_le ?_, ?_⟩
  · rw [← zpow_natCast, ← zpow_add₀ (by norm_num)]
    refine zpow_le_zpow_right₀ (by norm_num) ?_
    have := le_max_left (floorLog2 n d - 52) (-1074)
    push_cast
    omega
  · rcases le_total (floorLog2 n d - 52) (-1074) with h | h
    · right; rw [max_eq_right h]
    · left
      rw [max_eq_left h]
      refine le_trans (le_of_eq ?_) h1
      rw [← zpow_natCast, ← zpow_add₀ (by norm_num)]
      congr 1
      push_cast
      omega

/-- the rounded significand is nearest among all numbers with 53 bits and an exponent that is not too small -/
theorem significand_nearest {x : ℚ} {m : Nat} {e : Int}
    (hi : ∀ i : Int, |x - m| ≤ |x - i| ∧ (|x - m| = |x - i| → (i : ℚ) = m ∨ m % 2 = 0))
    (hx : 2 ^ 52 ≤ x ∨ e = -1074) {m' : Nat} {e' : Int} (h1 : m' < 2 ^ 53) (h2 : -1074 ≤ e') :
    |x - m| ≤ |x - m' * 2 ^ (e' - e)| ∧ (|x - m| = |x - m' * 2 ^ (e' - e)| → (m' : ℚ) * 2 ^ (e' - e) = m ∨ m % 2 = 0) := by
  by_cases he : e ≤ e'
  · have : (m' : ℚ) * 2 ^ (e' - e) = ((m' * 2 ^ (e' - e).toNat : Nat) : Int) := by
      push_cast
      rw [← zpow_natCast, Int.toNat_of_nonneg (by omega)]
    rw [this]
    exact hi _
  · have hx' : 2 ^ 52 ≤ x := by
      rcases hx with h | h
      · exact h
      · omega
    have hv : (m' : ℚ) * 2 ^ (e' - e) < 2 ^ 52 := by
      have h3 : (m' : ℚ) < 2 ^ 53 := by exact_mod_cast h1
      have h4 : (2 : ℚ) ^ (e' - e) ≤ 2 ^ (-1 : Int) := zpow_le_zpow_right₀ (by norm_num) (by omega)
      calc (m' : ℚ) * 2 ^ (e' - e) < 2 ^ 53 * 2 ^ (e' - e) := mul_lt_mul_of_pos_right h3 (two_zpow_pos _)
        _ ≤ 2 ^ 53 * 2 ^ (-1 : Int) := mul_le_mul_of_nonneg_left h4 (by norm_num)
        _ = 2 ^ 52 := by norm_num
    have h5 := (hi (2 ^ 52)).1
    rw [cast_two_pow] at h5
    rw [abs_of_nonneg (show (0 : ℚ) ≤ x - 2 ^ 52 by linarith)] at h5
    rw [abs_of_nonneg (show (0 : ℚ) ≤ x - m' * 2 ^ (e' - e) by linarith)]
    exact ⟨by linarith, fun h => by linarith⟩

theorem abs_scale (x v : ℚ) (e : Int) : |x * 2 ^ e - v * 2 ^ e| = |x - v| * 2 ^ e := by
  rw [← sub_mul, abs_mul, abs_of_pos (two_zpow_pos e)]

theorem nearestDouble_spec (negative : Bool) (n : Nat) {d : Nat} (hd : d ≠ 0) :
    FloatOf negative ((n : ℚ) / d) (nearestDouble negative n d) := by
  have hd' : (0 : ℚ) < d := by exact_mod_cast Nat.pos_of_ne_zero hd
  unfold nearestDouble
  split
  · rename_i h
    subst h
    have hz : ((0 : Nat) : ℚ) / d = 0 := by simp
    rw [hz]
    refine .finite (by positivity) ⟨⟨by norm_num, le_refl _, by norm_num⟩, .inr rfl, fun m' e' _ => ?_, fun _ _ _ _ => .inr rfl⟩
    have : (0 : ℚ) ≤ |(m' : ℚ) * 2 ^ e'| := abs_nonneg _
    simpa using this
  rename_i hn
  obtain ⟨l1, l2, l3⟩ := lastBit_spec hn hd
  generalize lastBit n d = e at *
  have hD : d * 2 ^ e.toNat ≠ 0 := Nat.mul_ne_zero hd (by positivity)
  have hx : ((n * 2 ^ (-e).toNat : Nat) : ℚ) / ((d * 2 ^ e.toNat : Nat) : ℚ) = (n : ℚ) / d / 2 ^ e := by
    have := two_zpow_toNat e
    push_cast
    rw [← this]
    have h1 : (0 : ℚ) < 2 ^ (-e).toNat := by positivity
    have h2 := two_zpow_pos e
    field_simp
  have hi := roundHalfEven_nearest (n * 2 ^ (-e).toNat) hD
  have hh := roundHalfEven_spec (n * 2 ^ (-e).toNat) hD
  rw [hx] at hi hh
  dsimp only
  generalize roundHalfEven (n * 2 ^ (-e).toNat) (d * 2 ^ e.toNat) = m at *
  obtain ⟨x, hq⟩ : ∃ x : ℚ, x = (n : ℚ) / d / 2 ^ e := ⟨_, rfl⟩
  have hp := two_zpow_pos e
  have hq' : (n : ℚ) / d = x * 2 ^ e := by rw [hq, div_mul_cancel₀ _ hp.ne']
  rw [← hq] at hi hh
  rw [hq'] at l2 l3 ⊢
  have l2' : x < 2 ^ 53 := lt_of_mul_lt_mul_right l2 hp.le
  have l3' : 2 ^ 52 ≤ x ∨ e = -1074 := l3.imp (fun h => le_of_mul_le_mul_right h hp) id
  have hm1 : m ≤ 2 ^ 53 := by
    have h := (hi (2 ^ 53)).1
    rw [cast_two_pow] at h
    rw [abs_of_nonpos (show x - 2 ^ 53 ≤ 0 by linarith)] at h
    have h := (abs_le.1 h).1
    have : (m : ℚ) ≤ (2 ^ 53 : Nat) := by push_cast; linarith
    exact_mod_cast this
  have hm2 : 2 ^ 52 ≤ m ∨ e = -1074 := by
    refine l3'.imp (fun h1 => ?_) id
    have h := (hi (2 ^ 52)).1
    rw [cast_two_pow] at h
    rw [abs_of_nonneg (show 0 ≤ x - 2 ^ 52 by linarith)] at h
    have h := (abs_le.1 h).2
    have : ((2 ^ 52 : Nat) : ℚ) ≤ m := by push_cast; linarith
    exact_mod_cast this
  have near : ∀ m' e', IsDouble m' e' → |x * 2 ^ e - m * 2 ^ e| ≤ |x * 2 ^ e - m' * 2 ^ e'| ∧
      (|x * 2 ^ e - m * 2 ^ e| = |x * 2 ^ e - m' * 2 ^ e'| → (m' : ℚ) * 2 ^ e' = m * 2 ^ e ∨ m % 2 = 0) := by
    intro m' e' hd
    obtain ⟨h1, h2⟩ := significand_nearest hi l3' hd.1 hd.2.1
    have hv : (m' : ℚ) * 2 ^ e' = m' * 2 ^ (e' - e) * 2 ^ e := by
      rw [mul_assoc, ← zpow_add₀ (by norm_num), sub_add_cancel]
    rw [hv, abs_scale, abs_scale]
    refine ⟨mul_le_mul_of_nonneg_right h1 hp.le, fun h => ?_⟩
    refine (h2 (mul_right_cancel₀ hp.ne' h)).imp (fun h => by rw [h]) id
  by_cases hm : m = 2 ^ 53
  · rw [if_pos hm]
    dsimp only
    have hval : ((2 ^ 52 : Nat) : ℚ) * 2 ^ (e + 1) = m * 2 ^ e := by
      rw [hm, zpow_add₀ (by norm_num)]
      push_cast
      ring
    have hlow : 2 ^ 53 - 1 / 2 ≤ x := by
      have h := (abs_le.1 hh.1).1
      rw [hm] at h
      push_cast at h
      linarith
    split
    · rename_i h
      refine .inf (mul_le_mul hlow ?_ (by positivity) (by linarith))
      rw [← zpow_natCast]
      exact zpow_le_zpow_right₀ (by norm_num) (by push_cast; omega)
    · rename_i h
      refine .finite ?_ ⟨⟨by norm_num, by omega, by omega⟩, .inl (le_refl _), fun m' e' hd => ?_, fun m' e' hd he => ?_⟩
      · calc x * 2 ^ e < 2 ^ 53 * 2 ^ e := l2
          _ ≤ 2 ^ 53 * 2 ^ (970 : Int) := mul_le_mul_of_nonneg_left (zpow_le_zpow_right₀ (by norm_num) (by omega)) (by norm_num)
          _ < (2 ^ 53 - 1 / 2) * (2 * 2 ^ (970 : Int)) := by
            have := two_zpow_pos 970
            generalize (2 : ℚ) ^ (970 : Int) = y at *
            linarith
          _ = (2 ^ 53 - 1 / 2) * 2 ^ 971 := by rw [pow_971, ← zpow_one_add₀ (by norm_num)]; rfl
      · rw [hval]; exact (near m' e' hd).1
      · exact .inr (by norm_num)
  · rw [if_neg hm]
    dsimp only
    split
    · rename_i h
      refine .inf ?_
      have hx52 : 2 ^ 52 ≤ x := by
        rcases l3' with h' | h'
        · exact h'
        · omega
      calc ((2 : ℚ) ^ 53 - 1 / 2) * 2 ^ 971 ≤ 2 ^ 52 * (2 * 2 ^ (971 : Int)) := by
            rw [pow_971]
            have := two_zpow_pos 971
            generalize (2 : ℚ) ^ (971 : Int) = y at *
            linarith
        _ = 2 ^ 52 * 2 ^ (972 : Int) := by rw [← zpow_one_add₀ (by norm_num)]; rfl
        _ ≤ 2 ^ 52 * 2 ^ e := mul_le_mul_of_nonneg_left (zpow_le_zpow_right₀ (by norm_num) (by omega)) (by norm_num)
        _ ≤ x * 2 ^ e := mul_le_mul_of_nonneg_right hx52 hp.le
    · rename_i h
      have hm3 : m < 2 ^ 53 := by omega
      refine .finite ?_ ⟨⟨hm3, l1, by omega⟩, hm2, fun m' e' hd => (near m' e' hd).1, fun m' e' hd => (near m' e' hd).2⟩
      have hxlt : x < 2 ^ 53 - 1 / 2 := by
        have h1 : (m : ℚ) + 1 ≤ 2 ^ 53 := by exact_mod_cast hm3
        have h2 := (abs_le.1 hh.1).2
        rcases lt_or_eq_of_le (show x ≤ 2 ^ 53 - 1 / 2 by linarith) with h3 | h3
        · exact h3
        · exfalso
          have h4 : (m : ℚ) + 1 = 2 ^ 53 := by linarith
          have h5 : m + 1 = 2 ^ 53 := by exact_mod_cast h4
          have h6 := hh.2 (by rw [h3, abs_of_nonneg (by linarith)]; linarith)
          omega
      calc x * 2 ^ e < (2 ^ 53 - 1 / 2) * 2 ^ e := mul_lt_mul_of_pos_right hxlt hp
        _ ≤ (2 ^ 53 - 1 / 2) * 2 ^ (971 : Int) := mul_le_mul_of_nonneg_left (zpow_le_zpow_right₀ (by norm_num) (by omega)) (by norm_num)
        _ = _ := by rw [pow_971]

/-- two doubles in normal form: the one with the greater value follows the other one at a distance of at least one unit -/
theorem double_succ_le {m : Nat} {e : Int} {m' : Nat} {e' : Int} (hn : 2 ^ 52 ≤ m ∨ e = -1074) (hd' : IsDouble m' e')
    (h : (m : ℚ) * 2 ^ e < m' * 2 ^ e') : ((m + 1 : Nat) : ℚ) * 2 ^ e ≤ m' * 2 ^ e' := by
  have hp := two_zpow_pos e
  have hv : (m' : ℚ) * 2 ^ e' = m' * 2 ^ (e' - e) * 2 ^ e := by
    rw [mul_assoc, ← zpow_add₀ (by norm_num), sub_add_cancel]
  rw [hv] at h ⊢
  have h := lt_of_mul_lt_mul_right h hp.le
  refine mul_le_mul_of_nonneg_right ?_ hp.le
  by_cases he : e ≤ e'
  · have hk : (2 : ℚ) ^ (e' - e) = ((2 ^ (e' - e).toNat : Nat) : ℚ) := by
      push_cast
      rw [← zpow_natCast, Int.toNat_of_nonneg (by omega)]
    rw [hk] at h ⊢
    have : m < m' * 2 ^ (e' - e).toNat := by exact_mod_cast h
    exact_mod_cast this
  · exfalso
    have h52 : 2 ^ 52 ≤ m := by
      rcases hn with h | h
      · exact h
      · have := hd'.2.1; omega
    have h1 : (m' : ℚ) < 2 ^ 53 := by exact_mod_cast hd'.1
    have h2 : ((2 : ℚ) ^ 52) ≤ m := by exact_mod_cast h52
    have h4 : (2 : ℚ) ^ (e' - e) ≤ 2 ^ (-1 : Int) := zpow_le_zpow_right₀ (by norm_num) (by omega)
    have : (m' : ℚ) * 2 ^ (e' - e) < 2 ^ 52 :=
      calc (m' : ℚ) * 2 ^ (e' - e) < 2 ^ 53 * 2 ^ (e' - e) := mul_lt_mul_of_pos_right h1 (two_zpow_pos _)
        _ ≤ 2 ^ 53 * 2 ^ (-1 : Int) := mul_le_mul_of_nonneg_left h4 (by norm_num)
        _ = 2 ^ 52 := by norm_num
    linarith

theorem double_ext {m e m' e'} (hd : IsDouble m e) (hn : 2 ^ 52 ≤ m ∨ e = -1074) (hd' : IsDouble m' e')
    (hn' : 2 ^ 52 ≤ m' ∨ e' = -1074) (h : (m : ℚ) * 2 ^ e = m' * 2 ^ e') : m = m' ∧ e = e' := by
  -- an exponent which is smaller leads to a smaller value
  have key : ∀ {m e m' e'}, IsDouble m e → IsDouble m' e' → (2 ^ 52 ≤ m' ∨ e' = -1074) → e < e' → (m : ℚ) * 2 ^ e < m' * 2 ^ e' := by
    intro m e m' e' hd hd' hn' hlt
    have h52 : 2 ^ 52 ≤ m' := by
      rcases hn' with h | h
      · exact h
      · have := hd.2.1; omega
    have h1 : (m : ℚ) < 2 ^ 53 := by exact_mod_cast hd.1
    have h2 : ((2 : ℚ) ^ 52) ≤ m' := by exact_mod_cast h52
    calc (m : ℚ) * 2 ^ e < 2 ^ 53 * 2 ^ e := mul_lt_mul_of_pos_right h1 (two_zpow_pos _)
      _ = 2 ^ 52 * 2 ^ (e + 1) := by rw [zpow_add₀ (by norm_num)]; ring
      _ ≤ 2 ^ 52 * 2 ^ e' := mul_le_mul_of_nonneg_left (zpow_le_zpow_right₀ (by norm_num) (by omega)) (by norm_num)
      _ ≤ m' * 2 ^ e' := mul_le_mul_of_nonneg_right h2 (two_zpow_pos _).le
  rcases lt_trichotomy e e' with hlt | rfl | hlt
  · exact absurd h (key hd hd' hn' hlt).ne
  · have := mul_right_cancel₀ (two_zpow_pos e).ne' h
    exact ⟨by exact_mod_cast this, rfl⟩
  · exact absurd h.symm (key hd' hd hn hlt).ne

theorem nearestDouble_unique {q : ℚ} {m e m' e'} (h : NearestDouble q m e) (h' : NearestDouble q m' e') : m = m' ∧ e = e' := by
  -- two different ones would be neighbours with even significands
  have key : ∀ {m e m' e'}, NearestDouble q m e → NearestDouble q m' e' → ¬ (m : ℚ) * 2 ^ e < m' * 2 ^ e' := by
    intro m e m' e' h h' hlt
    have heq : |q - m * 2 ^ e| = |q - m' * 2 ^ e'| := le_antisymm (h.nearest _ _ h'.isDouble) (h'.nearest _ _ h.isDouble)
    have hev : m % 2 = 0 := (h.even _ _ h'.isDouble heq).resolve_left hlt.ne'
    have hev' : m' % 2 = 0 := (h'.even _ _ h.isDouble heq.symm).resolve_left hlt.ne
    have hmid : q - m * 2 ^ e = m' * 2 ^ e' - q := by
      rcases abs_eq_abs.1 heq with h | h
      · linarith
      · linarith
    have hs : IsDouble (m + 1) e := ⟨by have := h.isDouble.1; omega, h.isDouble.2⟩
    have hle := double_succ_le h.normal h'.isDouble hlt
    have hp := two_zpow_pos e
    have hgt : (m : ℚ) * 2 ^ e < ((m + 1 : Nat) : ℚ) * 2 ^ e := by push_cast; linarith
    have hne := h.nearest _ _ hs
    rw [abs_of_nonneg (show 0 ≤ q - m * 2 ^ e by linarith)] at hne
    have hse : ((m + 1 : Nat) : ℚ) * 2 ^ e = m' * 2 ^ e' := by
      rcases le_abs.1 hne with h | h
      · linarith
      · linarith
    -- the neighbour is in normal form, too, or its significand has 54 bits
    by_cases hnorm : 2 ^ 52 ≤ m + 1 ∨ e = -1074
    · have := (double_ext hs hnorm h'.isDouble h'.normal hse).1
      omega
    · rcases h.normal with h | h
      · exact hnorm (.inl (by omega))
      · exact hnorm (.inr h)
  refine double_ext h.isDouble h.normal h'.isDouble h'.normal (le_antisymm ?_ ?_)
  · exact not_lt.1 (key h' h)
  · exact not_lt.1 (key h h')

theorem floatOf_iff {negative : Bool} {n d : Nat} (hd : d ≠ 0) {f : PyFloat} :
    FloatOf negative ((n : ℚ) / d) f ↔ f = nearestDouble negative n d := by
  constructor
  · intro h
    have h' := nearestDouble_spec negative n hd
    generalize nearestDouble negative n d = g at *
    cases h with
    | finite h1 h2 => cases h' with
      | finite h3 h4 => obtain ⟨rfl, rfl⟩ := nearestDouble_unique h2 h4; rfl
      | inf h3 => exact absurd h1 (not_lt.2 h3)
    | inf h1 => cases h' with
      | finite h3 h4 => exact absurd h3 (not_lt.2 h1)
      | inf h3 => rfl
  · rintro rfl
    exact nearestDouble_spec negative n hd

/-- `float` of a decimal number is the nearest double -/
theorem decimalToFloat_iff {negative : Bool} {n : Nat} {k : Int} {f : PyFloat} :
    FloatOf negative (n * 10 ^ k) f ↔ f = decimalToFloat negative n k := by
  unfold decimalToFloat
  rw [← floatOf_iff (by positivity)]
  have : (n : ℚ) * 10 ^ k = ((n * 10 ^ k.toNat : Nat) : ℚ) / ((10 ^ (-k).toNat : Nat) : ℚ) := by
    push_cast
    rw [eq_div_iff (by positivity), mul_assoc, ← zpow_natCast (10 : ℚ) (-k).toNat, ← zpow_natCast (10 : ℚ) k.toNat,
      ← zpow_add₀ (by norm_num)]
    congr 2
    omega
  rw [this]

theorem toInt_iff (f : PyFloat) (i : Int) : f.toInt = some i ↔ IntegerPart f i := by
  have key : ∀ (m : Nat) (e : Int) (n : Nat), m * 2 ^ e.toNat / 2 ^ (-e).toNat = n ↔ (n : ℚ) ≤ m * 2 ^ e ∧ (m : ℚ) * 2 ^ e < n + 1 := by
    intro m e n
    have hp : (0 : ℚ) < 2 ^ (-e).toNat := by positivity
    have hv : ((m * 2 ^ e.toNat : Nat) : ℚ) = m * 2 ^ e * 2 ^ (-e).toNat := by
      push_cast
      rw [← two_zpow_toNat e, mul_assoc]
    rw [Nat.div_eq_iff (by positivity), ← mul_le_mul_iff_left₀ hp, ← mul_lt_mul_iff_left₀ hp, ← hv]
    have h1 : (n : ℚ) * 2 ^ (-e).toNat = ((n * 2 ^ (-e).toNat : Nat) : ℚ) := by push_cast; rfl
    have h2 : ((n : ℚ) + 1) * 2 ^ (-e).toNat = ((n * 2 ^ (-e).toNat + 2 ^ (-e).toNat : Nat) : ℚ) := by push_cast; ring
    rw [h1, h2, Nat.cast_le, Nat.cast_lt]
    have : 0 < 2 ^ (-e).toNat := by positivity
    omega
  constructor
  · intro h
    cases f with
    | nan => cases h
    | inf b => cases h
    | finite b m e =>
      obtain ⟨h1, h2⟩ := (key m e _).1 rfl
      cases h
      cases b
      · exact .positive h1 h2
      · exact .negative h1 h2
  · intro h
    cases h with
    | positive h1 h2 => rw [PyFloat.toInt, (key _ _ _).2 ⟨h1, h2⟩]; rfl
    | negative h1 h2 => rw [PyFloat.toInt, (key _ _ _).2 ⟨h1, h2⟩]; rfl

end Verif
