import Verif.Spec.Codes
import Verif.Proofs.Regex
import Verif.Model.Navigation
/-! the location validators accept exactly the described codes -/

namespace Verif
open Re

theorem sgKeyRe_iff (s : PyStr) : (sgKeyRe.fullMatch s).isSome = true ↔ IsSgKey s := by
  rw [fullMatch_isSome]
  simp only [sgKeyRe, mem_seq, mem_bol, mem_str, mem_plus_cls, mem_eol, IsSgKey]
  constructor
  · rintro ⟨t, ⟨u, ⟨_, rfl⟩, v, ⟨s', h1, rfl⟩, w, ⟨d, s'', hd, h2, h3, rfl⟩, h4, rfl⟩, h5⟩
    simp only [adv_rest] at h2 h5 h1
    subst h5
    exact ⟨d, hd, by simpa using h3, by simp_all⟩
  · rintro ⟨d, hd, h3, rfl⟩
    refine ⟨_, ⟨_, ⟨trivial, rfl⟩, _, ⟨d, rfl, rfl⟩, _, ⟨d, [], hd, by simp, by simpa using h3, rfl⟩, ?_, rfl⟩, ?_⟩
    · simp
    · simp

theorem segmentCode3Re_iff (s : PyStr) : (segmentCode3Re.fullMatch s).isSome = true ↔ IsThreeLetterCode s := by
  rw [fullMatch_isSome]
  simp only [segmentCode3Re, mem_seq, mem_bol, mem_rep_cls, mem_eol, IsThreeLetterCode, mem_capitals]
  constructor
  · rintro ⟨t, ⟨u, ⟨_, rfl⟩, w, ⟨d, s'', hd, h2, h3, rfl⟩, h4, rfl⟩, h5⟩
    simp only [adv_rest] at h2 h5
    subst h5
    simp only [List.append_nil] at h2
    subst h2
    exact ⟨hd, by simpa using h3⟩
  · rintro ⟨hd, h3⟩
    exact ⟨_, ⟨_, ⟨trivial, rfl⟩, _, ⟨s, [], hd, by simp, by simpa using h3, rfl⟩, by simp, rfl⟩, by simp⟩

theorem dataElement4Re_iff (s : PyStr) : (dataElement4Re.fullMatch s).isSome = true ↔ IsFourDigits s := by
  rw [fullMatch_isSome]
  simp only [dataElement4Re, mem_seq, mem_bol, mem_rep_cls, mem_eol, IsFourDigits]
  constructor
  · rintro ⟨t, ⟨u, ⟨_, rfl⟩, w, ⟨d, s'', hd, h2, h3, rfl⟩, h4, rfl⟩, h5⟩
    simp only [adv_rest] at h2 h5
    subst h5
    simp only [List.append_nil] at h2
    subst h2
    exact ⟨hd, by simpa using h3⟩
  · rintro ⟨hd, h3⟩
    exact ⟨_, ⟨_, ⟨trivial, rfl⟩, _, ⟨s, [], hd, by simp, by simpa using h3, rfl⟩, by simp, rfl⟩, by simp⟩

theorem openingQualifierRe_iff (s : PyStr) :
    (openingQualifierRe.fullMatch s).isSome = true ↔ IsLettersThenDigits s := by
  rw [fullMatch_isSome]
  simp only [openingQualifierRe, mem_seq, mem_bol, mem_star_cls, mem_eol, IsLettersThenDigits, mem_capitals]
  constructor
  · rintro ⟨t, ⟨u, ⟨_, rfl⟩, v, ⟨l, s', h1, h2, rfl⟩, w, ⟨d, s'', h3, h4, rfl⟩, h5, rfl⟩, h6⟩
    simp only [adv_rest] at h1 h3 h6
    subst h6
    exact ⟨l, d, by simpa using h2, by simpa using h4, by simp_all⟩
  · rintro ⟨l, d, h1, h2, rfl⟩
    exact ⟨_, ⟨_, ⟨trivial, rfl⟩, _, ⟨l, d, rfl, by simpa using h1, rfl⟩, _, ⟨d, [], by simp, by simpa using h2, rfl⟩,
      by simp, rfl⟩, by simp⟩

theorem optMatches_iff {r : Re} {P : PyStr → Prop} (h : ∀ s, (r.fullMatch s).isSome = true ↔ P s) (o : Option PyStr) :
    optMatches r o = true ↔ ∀ s, o = some s → P s := by
  cases o with
  | none => simp [optMatches]
  | some s => simp [optMatches, h]

end Verif
