import Verif.Proofs.Texts
import Verif.Proofs.JsonGrammar
import Verif.Proofs.SchemaLoad
/-!
# Proofs: the strings of a JSON text (C124)
-/

namespace Verif

/-- a text without lone surrogates and without escapes of surrogates -/
def PlainJson (t : PyStr) : Prop := NoSurrogateEscape t ∧ ¬ HoldsLone t

theorem PlainJson.infix {a t b : PyStr} (h : PlainJson (a ++ (t ++ b))) : PlainJson t := by
  refine ⟨fun before x y z u after n ht hn => ?_, fun hl => h.2 ?_⟩
  · exact h.1 (a ++ before) x y z u (after ++ b) n (by rw [ht]; simp) hn
  · rw [holdsLone_append, holdsLone_append]; exact .inr (.inl hl)

theorem PlainJson.right {a t : PyStr} (h : PlainJson (a ++ t)) : PlainJson t := by
  have : PlainJson (a ++ (t ++ [])) := by rw [List.append_nil]; exact h
  exact this.infix

theorem PlainJson.left {t b : PyStr} (h : PlainJson (t ++ b)) : PlainJson t := PlainJson.infix (a := []) h

theorem PlainJson.tail {c : Char} {t : PyStr} (h : PlainJson (c :: t)) : PlainJson t := PlainJson.right (a := [c]) h

theorem plain_units {t : PyStr} {u : List Nat} (h : JsonUnits t u) : PlainJson t → ∀ n ∈ u, n < 0x10F800 ∧ ¬ (0xD800 ≤ n ∧ n ≤ 0xDFFF) := by
  induction h with
  | nil => intro _ n hn; cases hn
  | @plain c s u h1 h2 h3 h ih =>
    intro hp n hn
    rcases List.mem_cons.1 hn with rfl | hn
    · have hc := c.valid
      have h4 : ¬ 0x10F800 ≤ c.toNat := fun hl => hp.2 (holdsLone_cons.2 (.inl hl))
      refine ⟨by omega, ?_⟩
      unfold UInt32.isValidChar Nat.isValidChar at hc
      have : c.toNat = c.val.toNat := rfl
      omega
    · exact ih hp.tail n hn
  | @escape x y s u hx h ih =>
    intro hp n hn
    rcases List.mem_cons.1 hn with rfl | hn
    · cases hx <;> decide
    · exact ih hp.tail.tail n hn
  | @hex a b c d i j k l s u ha hb hc hd h ih =>
    intro hp n hn
    rcases List.mem_cons.1 hn with rfl | hn
    · have h1 := hexDigit_lt ha
      have h2 := hexDigit_lt hb
      have h3 := hexDigit_lt hc
      have h4 := hexDigit_lt hd
      refine ⟨by omega, ?_⟩
      exact hp.1 [] a b c d s _ rfl ((parseHex_four _ _ _ _ _).2 ⟨i, j, k, l, ha, hb, hc, hd, rfl⟩)
    · exact ih hp.tail.tail.tail.tail.tail.tail n hn

theorem plain_denote {u : List Nat} {s : PyStr} (h : UnitsDenote u s) : (∀ n ∈ u, n < 0x10F800 ∧ ¬ (0xD800 ≤ n ∧ n ≤ 0xDFFF)) →
    ¬ HoldsLone s := by
  induction h with
  | nil => intro _; exact not_holdsLone_nil
  | @single c u s h ih =>
    intro hu
    rw [holdsLone_cons, not_or]
    refine ⟨?_, ih fun n hn => hu n (List.mem_cons_of_mem _ hn)⟩
    have := (hu c.toNat (by simp)).1
    omega
  | @pair c u s h hi lo h1 h2 hc ih =>
    intro hu
    have := (hu (0xD800 + hi) (by simp)).2
    omega

theorem plain_string {t s : PyStr} (h : JsonString t s) (hp : PlainJson t) : ¬ HoldsLone s := by
  obtain ⟨h1, h2⟩ := h
  exact plain_denote h2 (plain_units h1 hp.tail.left)

theorem allStr_dict {Q : PyStr → Prop} {members d : List (PyStr × Json)} (hd : DictOfMembers members d)
    (h : Json.AllStrMembers Q members) : Json.AllStrMembers Q d := by
  rw [allStrMembers_iff] at h ⊢
  rintro ⟨k, v⟩ hm
  obtain ⟨before, after, hb, _⟩ := hd.2 k v hm
  exact h (k, v) (by rw [hb]; simp)

mutual
theorem plain_value {t : PyStr} {j : Json} : JsonValue t j → PlainJson t → j.AllStr (fun s => ¬ HoldsLone s)
  | .null, _ => by trivial
  | .true, _ => by trivial
  | .false, _ => by trivial
  | .integer _, _ => by trivial
  | .negative _, _ => by trivial
  | .float _ _, _ => by trivial
  | .negativeFloat _ _, _ => by trivial
  | .nan, _ => by trivial
  | .infinity, _ => by trivial
  | .negativeInfinity, _ => by trivial
  | .string h, hp => plain_string h hp
  | .emptyArray _, _ => by trivial
  | .array h, hp => by rw [Json.AllStr]; exact plain_items h hp.tail.left
  | .emptyObject _, _ => by trivial
  | .object h hd, hp => by rw [Json.AllStr]; exact allStr_dict hd (plain_members h hp.tail.left)
theorem plain_items {t : PyStr} {l : List Json} : JsonItems t l → PlainJson t → Json.AllStrItems (fun s => ¬ HoldsLone s) l
  | .last _ h _, hp => ⟨plain_value h hp.infix, trivial⟩
  | .cons _ h _ hl, hp => ⟨plain_value h hp.infix, plain_items hl hp.right.right.right.tail⟩
theorem plain_members {t : PyStr} {l : List (PyStr × Json)} : JsonMembers t l → PlainJson t →
    Json.AllStrMembers (fun s => ¬ HoldsLone s) l
  | .last _ hk _ _ h _, hp => ⟨plain_string hk hp.infix, plain_value h hp.right.right.right.tail.right.left, trivial⟩
  | .cons _ hk _ _ h _ hl, hp => ⟨plain_string hk hp.infix, plain_value h hp.right.right.right.tail.right.left,
      plain_members hl hp.right.right.right.tail.right.right.right.tail⟩
end

/-! ## the texts of a loaded flat AHB -/

theorem optional_text {Q : PyStr → Prop} {k : PyStr} {d : List (PyStr × Json)} {o : Option PyStr} (hd : Json.AllStrMembers Q d)
    (h : Optional IsText none (dictGet k d) o) : ∀ t, o = some t → Q t := by
  rintro t rfl
  generalize hg : dictGet k d = g at h
  cases h with
  | value hj =>
    cases hj
    exact ((allStrMembers_iff _).1 hd _ (dictGet_mem _ _ _ hg)).2

theorem given_text {Q : PyStr → Prop} {k : PyStr} {d : List (PyStr × Json)} {t : PyStr} (hd : Json.AllStrMembers Q d)
    (h : Given IsText (dictGet k d) t) : Q t := by
  generalize hg : dictGet k d = g at h
  cases h with
  | value hj =>
    cases hj
    exact ((allStrMembers_iff _).1 hd _ (dictGet_mem _ _ _ hg)).2

theorem describesLine_texts {Q : PyStr → Prop} {j : Json} {l : AhbLine} (h : DescribesLine j l) (hj : j.AllStr Q) :
    ∀ t, l.HasText t → Q t := by
  obtain ⟨d, l, _, _, a1, a2, a3, a4, a5, a6, a7, a8, a9, _, _⟩ := h
  rw [Json.AllStr] at hj
  intro t ht
  unfold AhbLine.HasText at ht
  simp only [List.mem_cons, List.not_mem_nil, or_false] at ht
  rcases ht with ht | ht | ht | ht | ht | ht | ht | ht | ht
  · exact optional_text hj a1 t ht.symm
  · exact optional_text hj a2 t ht.symm
  · exact optional_text hj a4 t ht.symm
  · exact optional_text hj a3 t ht.symm
  · exact optional_text hj a5 t ht.symm
  · exact optional_text hj a6 t ht.symm
  · exact optional_text hj a7 t ht.symm
  · exact optional_text hj a8 t ht.symm
  · exact optional_text hj a9 t ht.symm

theorem describesFlat_texts {Q : PyStr → Prop} {j : Json} {f : FlatAhb} (h : DescribesFlat j f) (hj : j.AllStr Q) :
    ∀ t, FlatText f t → Q t := by
  obtain ⟨d, f, _, h1, h2, _⟩ := h
  rw [Json.AllStr] at hj
  have hm : ∀ t, (t = f.ahbMeta.pruefidentifikator ∨ f.ahbMeta.description = some t ∨ f.ahbMeta.direction = some t) → Q t := by
    generalize hg : dictGet py!"meta" d = g at h1
    generalize f.ahbMeta = m at h1
    cases h1 with
    | value hx =>
      have hd := ((allStrMembers_iff _).1 hj _ (dictGet_mem _ _ _ hg)).2
      obtain ⟨d', m', _, b1, _, b2, b3, _⟩ := hx
      dsimp only at hd
      rw [Json.AllStr] at hd
      rintro t (rfl | h | h)
      · exact given_text hd b1
      · exact optional_text hd b2 t h
      · exact optional_text hd b3 t h
  have hlines : ∀ l ∈ f.lines, ∀ t, l.HasText t → Q t := by
    generalize hg : dictGet py!"lines" d = g at h2
    generalize f.lines = ls at h2
    cases h2 with
    | value hx =>
      have hd := ((allStrMembers_iff _).1 hj _ (dictGet_mem _ _ _ hg)).2
      obtain ⟨js, l', hf⟩ := hx
      dsimp only at hd
      rw [Json.AllStr, allStrItems_iff] at hd
      clear hg
      induction hf with
      | nil => intro l hl; cases hl
      | @cons j l js ls hjl _ ih =>
        intro l' hl'
        rcases List.mem_cons.1 hl' with rfl | hl'
        · exact describesLine_texts hjl (hd j (by simp))
        · exact ih (fun j hj => hd j (List.mem_cons_of_mem _ hj)) l' hl'
  rintro t (h | h | h | ⟨l, hl, ht⟩)
  · exact hm t (.inl h)
  · exact hm t (.inr (.inl h))
  · exact hm t (.inr (.inr h))
  · exact hlines l hl t ht

end Verif
