import Verif.Spec.White
/-!
# White space: the specification and the model agree
-/

namespace Verif

theorem mem_whiteSpace {c : Char} : c ∈ whiteSpace ↔ isSpace c = true := by
  constructor
  · intro h
    have : ∀ c ∈ whiteSpace, isSpace c = true := by decide
    exact this c h
  · intro h
    have hn : c.toNat = 9 ∨ c.toNat = 10 ∨ c.toNat = 11 ∨ c.toNat = 12 ∨ c.toNat = 13 ∨ c.toNat = 28 ∨ c.toNat = 29 ∨ c.toNat =
        30 ∨ c.toNat = 31 ∨ c.toNat = 32 ∨ c.toNat = 133 ∨ c.toNat = 160 ∨ c.toNat = 5760 ∨ c.toNat = 8192 ∨ c.toNat = 8193 ∨
        c.toNat = 8194 ∨ c.toNat = 8195 ∨ c.toNat = 8196 ∨ c.toNat = 8197 ∨ c.toNat = 8198 ∨ c.toNat = 8199 ∨ c.toNat = 8200 ∨
        c.toNat = 8201 ∨ c.toNat = 8202 ∨ c.toNat = 8232 ∨ c.toNat = 8233 ∨ c.toNat = 8239 ∨ c.toNat = 8287 ∨ c.toNat = 12288
        := by
      simp only [isSpace, Bool.or_eq_true, Bool.and_eq_true, decide_eq_true_eq, beq_iff_eq] at h
      omega
    have hc : c = Char.ofNat c.toNat := (Char.ofNat_toNat c).symm
    rw [hc]
    generalize c.toNat = n at hn
    rcases hn with rfl | rfl | rfl | rfl | rfl | rfl | rfl | rfl | rfl | rfl | rfl | rfl | rfl | rfl | rfl | rfl | rfl | rfl |
        rfl | rfl | rfl | rfl | rfl | rfl | rfl | rfl | rfl | rfl | rfl <;> decide

theorem not_mem_whiteSpace {c : Char} : c ∉ whiteSpace ↔ isSpace c = false := by
  rw [mem_whiteSpace, Bool.not_eq_true]

theorem mem_capitals {c : Char} : c ∈ capitals ↔ isAZ c = true := by
  constructor
  · intro h
    have : ∀ c ∈ capitals, isAZ c = true := by decide
    exact this c h
  · intro h
    have hn : c.toNat = 65 ∨ c.toNat = 66 ∨ c.toNat = 67 ∨ c.toNat = 68 ∨ c.toNat = 69 ∨ c.toNat = 70 ∨ c.toNat = 71 ∨ c.toNat
        = 72 ∨ c.toNat = 73 ∨ c.toNat = 74 ∨ c.toNat = 75 ∨ c.toNat = 76 ∨ c.toNat = 77 ∨ c.toNat = 78 ∨ c.toNat = 79 ∨ c.toNat
        = 80 ∨ c.toNat = 81 ∨ c.toNat = 82 ∨ c.toNat = 83 ∨ c.toNat = 84 ∨ c.toNat = 85 ∨ c.toNat = 86 ∨ c.toNat = 87 ∨ c.toNat
        = 88 ∨ c.toNat = 89 ∨ c.toNat = 90 := by
      simp only [isAZ, Bool.and_eq_true, decide_eq_true_eq] at h
      omega
    have hc : c = Char.ofNat c.toNat := (Char.ofNat_toNat c).symm
    rw [hc]
    generalize c.toNat = n at hn
    rcases hn with rfl | rfl | rfl | rfl | rfl | rfl | rfl | rfl | rfl | rfl | rfl | rfl | rfl | rfl | rfl | rfl | rfl | rfl |
        rfl | rfl | rfl | rfl | rfl | rfl | rfl | rfl <;> decide

theorem mem_smallLetters {c : Char} : c ∈ smallLetters ↔ isaz c = true := by
  constructor
  · intro h
    have : ∀ c ∈ smallLetters, isaz c = true := by decide
    exact this c h
  · intro h
    have hn : c.toNat = 97 ∨ c.toNat = 98 ∨ c.toNat = 99 ∨ c.toNat = 100 ∨ c.toNat = 101 ∨ c.toNat = 102 ∨ c.toNat = 103 ∨
        c.toNat = 104 ∨ c.toNat = 105 ∨ c.toNat = 106 ∨ c.toNat = 107 ∨ c.toNat = 108 ∨ c.toNat = 109 ∨ c.toNat = 110 ∨ c.toNat
        = 111 ∨ c.toNat = 112 ∨ c.toNat = 113 ∨ c.toNat = 114 ∨ c.toNat = 115 ∨ c.toNat = 116 ∨ c.toNat = 117 ∨ c.toNat = 118 ∨
        c.toNat = 119 ∨ c.toNat = 120 ∨ c.toNat = 121 ∨ c.toNat = 122 := by
      simp only [isaz, Bool.and_eq_true, decide_eq_true_eq] at h
      omega
    have hc : c = Char.ofNat c.toNat := (Char.ofNat_toNat c).symm
    rw [hc]
    generalize c.toNat = n at hn
    rcases hn with rfl | rfl | rfl | rfl | rfl | rfl | rfl | rfl | rfl | rfl | rfl | rfl | rfl | rfl | rfl | rfl | rfl | rfl |
        rfl | rfl | rfl | rfl | rfl | rfl | rfl | rfl <;> decide

theorem trim_eq (s : PyStr) : trim s = strip s := by
  have : (fun c : Char => decide (c ∈ whiteSpace)) = isSpace := by
    funext c
    rw [Bool.eq_iff_iff, decide_eq_true_eq, mem_whiteSpace]
  unfold trim
  rw [this]
  rfl

end Verif
