import Verif.Proofs.Regex
/-!
# The engine decides the language of a pattern

For patterns without anchors and lookaheads, the words consumed by `run` are exactly the words of the language `Lang`.
-/

namespace Verif
namespace Re

/-- the language of a pattern (anchors and lookaheads: see `Plain`) -/
def Lang : Re → PyStr → Prop
  | eps, w => w = []
  | cls p, w => ∃ c, w = [c] ∧ p c = true
  | seq a b, w => ∃ u v, w = u ++ v ∧ Lang a u ∧ Lang b v
  | alt a b, w => Lang a w ∨ Lang b w
  | star _ a, w => ∃ ws : List PyStr, w = ws.flatten ∧ ∀ u ∈ ws, Lang a u
  | grp _ a, w => Lang a w
  | bol, w => w = []
  | eol, w => w = []
  | nla _, w => w = []

/-- neither anchors nor lookaheads -/
def Plain : Re → Prop
  | eps => True
  | cls _ => True
  | seq a b => Plain a ∧ Plain b
  | alt a b => Plain a ∧ Plain b
  | star _ a => Plain a
  | grp _ a => Plain a
  | bol => False
  | eol => False
  | nla _ => False

theorem mem_iter (f : MSt → List MSt) (g : Bool) (n : Nat) (st t : MSt) :
    t ∈ iter f g (n + 1) st ↔ t = st ∨ ∃ u ∈ f st, u.rest.length < st.rest.length ∧ t ∈ iter f g n u := by
  simp only [iter]
  have key : t ∈ ((f st).filter fun s => s.rest.length < st.rest.length).flatMap (iter f g n) ↔
      ∃ u ∈ f st, u.rest.length < st.rest.length ∧ t ∈ iter f g n u := by
    simp [List.mem_flatMap, and_assoc]
  split <;> simp [key, or_comm]

theorem run_lang (r : Re) (hr : Plain r) (st : MSt) (s : PyStr) :
    (∃ t ∈ run r st, t.rest = s) ↔ ∃ w, st.rest = w ++ s ∧ Lang r w := by
  induction r generalizing st s with
  | eps => simp [run, Lang]
  | cls p =>
    constructor
    · rintro ⟨t, ht, rfl⟩
      obtain ⟨c, s, h1, h2, rfl⟩ := mem_cls.1 ht
      exact ⟨[c], by simpa using h1, c, rfl, h2⟩
    · rintro ⟨w, h1, c, rfl, h2⟩
      exact ⟨_, mem_cls.2 ⟨c, s, by simpa using h1, h2, rfl⟩, rfl⟩
  | seq a b iha ihb =>
    constructor
    · rintro ⟨t, ht, rfl⟩
      obtain ⟨u, hu, ht⟩ := mem_seq.1 ht
      obtain ⟨w, h1, h2⟩ := (iha hr.1 st u.rest).1 ⟨u, hu, rfl⟩
      obtain ⟨w', h3, h4⟩ := (ihb hr.2 u t.rest).1 ⟨t, ht, rfl⟩
      exact ⟨w ++ w', by rw [h1, h3, List.append_assoc], w, w', rfl, h2, h4⟩
    · rintro ⟨w, h1, u, v, rfl, h2, h3⟩
      obtain ⟨m, hm, hm'⟩ := (iha hr.1 st (v ++ s)).2 ⟨u, by rw [h1, List.append_assoc], h2⟩
      obtain ⟨t, ht, ht'⟩ := (ihb hr.2 m s).2 ⟨v, hm', h3⟩
      exact ⟨t, mem_seq.2 ⟨m, hm, ht⟩, ht'⟩
  | alt a b iha ihb =>
    have ha := iha hr.1 st s
    have hb := ihb hr.2 st s
    constructor
    · rintro ⟨t, ht, rfl⟩
      rcases mem_alt.1 ht with ht | ht
      · obtain ⟨w, h1, h2⟩ := ha.1 ⟨t, ht, rfl⟩
        exact ⟨w, h1, .inl h2⟩
      · obtain ⟨w, h1, h2⟩ := hb.1 ⟨t, ht, rfl⟩
        exact ⟨w, h1, .inr h2⟩
    · rintro ⟨w, h1, h2 | h2⟩
      · obtain ⟨t, ht, ht'⟩ := ha.2 ⟨w, h1, h2⟩
        exact ⟨t, mem_alt.2 (.inl ht), ht'⟩
      · obtain ⟨t, ht, ht'⟩ := hb.2 ⟨w, h1, h2⟩
        exact ⟨t, mem_alt.2 (.inr ht), ht'⟩
  | star g a iha =>
    have hr' : Plain a := hr
    have key : ∀ n (st : MSt), st.rest.length ≤ n → ((∃ t ∈ iter (run a) g n st, t.rest = s) ↔
        ∃ ws : List PyStr, st.rest = ws.flatten ++ s ∧ ∀ u ∈ ws, Lang a u) := by
      intro n
      induction n with
      | zero =>
        intro st hst
        have hnil : st.rest = [] := List.length_eq_zero_iff.1 (by omega)
        constructor
        · rintro ⟨t, ht, rfl⟩
          rw [List.mem_singleton.1 ht]
          exact ⟨[], by simp, by simp⟩
        · rintro ⟨ws, h1, h2⟩
          refine ⟨st, by simp [iter], ?_⟩
          rw [hnil] at h1 ⊢
          exact (List.append_eq_nil_iff.1 h1.symm).2.symm
      | succ n ihn =>
        intro st hst
        constructor
        · rintro ⟨t, ht, rfl⟩
          rcases (mem_iter _ _ _ _ _).1 ht with rfl | ⟨u, hu, hlt, ht⟩
          · exact ⟨[], by simp, by simp⟩
          · obtain ⟨w, h1, h2⟩ := (iha hr' st u.rest).1 ⟨u, hu, rfl⟩
            obtain ⟨ws, h3, h4⟩ := (ihn u (by omega)).1 ⟨t, ht, rfl⟩
            refine ⟨w :: ws, by rw [h1, h3]; simp, ?_⟩
            intro v hv
            rcases List.mem_cons.1 hv with rfl | hv
            · exact h2
            · exact h4 v hv
        · rintro ⟨ws, h1, h2⟩
          -- empty words can be dropped
          have h1' : st.rest = (ws.filter (fun w => !w.isEmpty)).flatten ++ s := by
            rw [h1]
            congr 1
            clear h1 h2
            induction ws with
            | nil => rfl
            | cons w ws ih =>
              cases w with
              | nil => simpa using ih
              | cons c w => simp [ih]
          generalize hf : ws.filter (fun w => !w.isEmpty) = ws' at h1'
          have h2' : ∀ u ∈ ws', Lang a u ∧ u ≠ [] := by
            intro u hu
            rw [← hf, List.mem_filter] at hu
            exact ⟨h2 u hu.1, by simpa using hu.2⟩
          cases ws' with
          | nil => exact ⟨st, (mem_iter _ _ _ _ _).2 (.inl rfl), by simpa using h1'⟩
          | cons w ws' =>
            obtain ⟨u, hu, hu'⟩ := (iha hr' st (ws'.flatten ++ s)).2
              ⟨w, by rw [h1']; simp, (h2' w (by simp)).1⟩
            have hlt : u.rest.length < st.rest.length := by
              rw [hu', h1']
              have := List.length_pos_iff.2 (h2' w (by simp)).2
              simp only [List.flatten_cons, List.length_append]
              omega
            obtain ⟨t, ht, ht'⟩ := (ihn u (by omega)).2 ⟨ws', hu', fun v hv => (h2' v (by simp [hv])).1⟩
            exact ⟨t, (mem_iter _ _ _ _ _).2 (.inr ⟨u, hu, hlt, ht⟩), ht'⟩
    rw [show run (star g a) st = iter (run a) g st.rest.length st from by simp [run], key _ st (Nat.le_refl _)]
    constructor
    · rintro ⟨ws, h1, h2⟩; exact ⟨_, h1, ws, rfl, h2⟩
    · rintro ⟨w, h1, ws, rfl, h2⟩; exact ⟨ws, h1, h2⟩
  | grp n a iha =>
    rw [show Lang (grp n a) = Lang a from rfl, ← iha hr st s]
    constructor
    · rintro ⟨t, ht, rfl⟩
      obtain ⟨u, hu, rfl⟩ := mem_grp.1 ht
      exact ⟨u, hu, rfl⟩
    · rintro ⟨u, hu, rfl⟩
      exact ⟨_, mem_grp.2 ⟨u, hu, rfl⟩, rfl⟩
  | bol => exact absurd hr id
  | eol => exact absurd hr id
  | nla a => exact absurd hr id

/-- `re.fullmatch` decides the language -/
theorem fullMatch_lang (r : Re) (hr : Plain r) (s : PyStr) : (r.fullMatch s).isSome = true ↔ Lang r s := by
  rw [fullMatch_isSome, run_lang r hr]
  simp

/-- `re.match` with `^...$`: the language, possibly followed by one newline -/
theorem pyMatch_anchored (r : Re) (hr : Plain r) (s : PyStr) :
    ((seq bol (seq r eol)).pyMatch s).isSome = true ↔ Lang r s ∨ ∃ t, s = t ++ ['\n'] ∧ Lang r t := by
  have hn := run_lang r hr { pos := 0, rest := s } []
  have hm := run_lang r hr { pos := 0, rest := s } ['\n']
  rw [pyMatch_isSome]
  constructor
  · rintro ⟨t, ht⟩
    obtain ⟨u, hu, ht⟩ := mem_seq.1 ht
    obtain ⟨_, rfl⟩ := mem_bol.1 hu
    obtain ⟨v, hv, ht⟩ := mem_seq.1 ht
    rcases (mem_eol.1 ht).1 with h | h
    · obtain ⟨w, h1, h2⟩ := hn.1 ⟨v, hv, h⟩
      left
      have hw : s = w := by simpa using h1
      rw [hw]; exact h2
    · obtain ⟨w, h1, h2⟩ := hm.1 ⟨v, hv, h⟩
      exact .inr ⟨w, h1, h2⟩
  · rintro (h | ⟨w, h1, h2⟩)
    · obtain ⟨v, hv, h'⟩ := hn.2 ⟨s, by simp, h⟩
      exact ⟨v, mem_seq.2 ⟨_, mem_bol.2 ⟨rfl, rfl⟩, mem_seq.2 ⟨v, hv, mem_eol.2 ⟨.inl h', rfl⟩⟩⟩⟩
    · obtain ⟨v, hv, h'⟩ := hm.2 ⟨w, h1, h2⟩
      exact ⟨v, mem_seq.2 ⟨_, mem_bol.2 ⟨rfl, rfl⟩, mem_seq.2 ⟨v, hv, mem_eol.2 ⟨.inr h', rfl⟩⟩⟩⟩

/-- the same with a lookahead in front: no word of `a` is a prefix -/
theorem pyMatch_anchored_nla (a r : Re) (ha : Plain a) (hr : Plain r) (s : PyStr) :
    ((seq bol (seq (nla a) (seq r eol))).pyMatch s).isSome = true ↔
      (¬ ∃ w, w <+: s ∧ Lang a w) ∧ (Lang r s ∨ ∃ t, s = t ++ ['\n'] ∧ Lang r t) := by
  have hempty : run a { pos := 0, rest := s } = [] ↔ ¬ ∃ w, w <+: s ∧ Lang a w := by
    rw [List.eq_nil_iff_forall_not_mem]
    constructor
    · rintro h ⟨w, ⟨s', h1⟩, h2⟩
      obtain ⟨t, ht, _⟩ := (run_lang a ha { pos := 0, rest := s } s').2 ⟨w, h1.symm, h2⟩
      exact h t ht
    · intro h t ht
      obtain ⟨w, h1, h2⟩ := (run_lang a ha { pos := 0, rest := s } t.rest).1 ⟨t, ht, rfl⟩
      exact h ⟨w, ⟨t.rest, h1.symm⟩, h2⟩
  rw [← pyMatch_anchored r hr, ← hempty, pyMatch_isSome, pyMatch_isSome]
  constructor
  · rintro ⟨t, ht⟩
    obtain ⟨u, hu, ht⟩ := mem_seq.1 ht
    obtain ⟨hp, rfl⟩ := mem_bol.1 hu
    obtain ⟨v, hv, ht⟩ := mem_seq.1 ht
    obtain ⟨h1, rfl⟩ := mem_nla.1 hv
    exact ⟨h1, t, mem_seq.2 ⟨_, hu, ht⟩⟩
  · rintro ⟨h1, t, ht⟩
    obtain ⟨u, hu, ht⟩ := mem_seq.1 ht
    obtain ⟨hp, rfl⟩ := mem_bol.1 hu
    exact ⟨t, mem_seq.2 ⟨_, hu, mem_seq.2 ⟨_, mem_nla.2 ⟨h1, rfl⟩, ht⟩⟩⟩

theorem lang_chr {c : Char} {w : PyStr} : Lang (chr c) w ↔ w = [c] := by
  simp only [chr, Lang, beq_iff_eq]
  constructor
  · rintro ⟨_, rfl, rfl⟩; rfl
  · rintro rfl; exact ⟨c, rfl, rfl⟩

theorem lang_str {u w : PyStr} : Lang (str u) w ↔ w = u := by
  induction u generalizing w with
  | nil => simp [str, Lang]
  | cons c u ih =>
    cases u with
    | nil => simp [str, lang_chr]
    | cons c' u =>
      simp only [str, Lang, lang_chr, ih]
      constructor
      · rintro ⟨_, _, rfl, rfl, rfl⟩; rfl
      · rintro rfl; exact ⟨_, _, rfl, rfl, rfl⟩

theorem plain_str (u : PyStr) : Plain (str u) := by
  induction u with
  | nil => trivial
  | cons c u ih => cases u <;> first | trivial | exact ⟨trivial, ih⟩

theorem lang_star_cls {p : Char → Bool} {g : Bool} {w : PyStr} : Lang (star g (cls p)) w ↔ ∀ c ∈ w, p c = true := by
  simp only [Lang]
  constructor
  · rintro ⟨ws, rfl, h⟩ c hc
    obtain ⟨u, hu, hc⟩ := List.mem_flatten.1 hc
    obtain ⟨c', rfl, h'⟩ := h u hu
    rw [List.mem_singleton.1 hc]; exact h'
  · intro h
    refine ⟨w.map fun c => [c], ?_, ?_⟩
    · clear h
      induction w with
      | nil => rfl
      | cons c w ih => simpa using ih
    · intro u hu
      obtain ⟨c, hc, rfl⟩ := List.mem_map.1 hu
      exact ⟨c, rfl, h c hc⟩

theorem lang_plus_cls {p : Char → Bool} {w : PyStr} : Lang (plus (cls p)) w ↔ w ≠ [] ∧ ∀ c ∈ w, p c = true := by
  rw [plus, Lang]
  simp only [lang_star_cls]
  constructor
  · rintro ⟨u, v, rfl, ⟨c, rfl, hc⟩, h⟩
    refine ⟨by simp, fun x hx => ?_⟩
    rcases List.mem_append.1 hx with hx | hx
    · rw [List.mem_singleton.1 hx]; exact hc
    · exact h x hx
  · rintro ⟨hne, h⟩
    cases w with
    | nil => exact absurd rfl hne
    | cons c w => exact ⟨[c], w, rfl, ⟨c, rfl, h c (by simp)⟩, fun x hx => h x (by simp [hx])⟩

theorem lang_opt {a : Re} {w : PyStr} : Lang (opt a) w ↔ Lang a w ∨ w = [] := Iff.rfl

theorem lang_rep_cls {p : Char → Bool} {n : Nat} {w : PyStr} :
    Lang (rep n (cls p)) w ↔ w.length = n ∧ ∀ c ∈ w, p c = true := by
  induction n generalizing w with
  | zero =>
    simp only [rep, Lang]
    constructor
    · rintro rfl; simp
    · rintro ⟨h, _⟩; exact List.length_eq_zero_iff.1 h
  | succ n ih =>
    simp only [rep, Lang, ih]
    constructor
    · rintro ⟨u, v, rfl, ⟨c, rfl, hc⟩, h1, h2⟩
      refine ⟨by simp [h1], fun x hx => ?_⟩
      rcases List.mem_append.1 hx with hx | hx
      · rw [List.mem_singleton.1 hx]; exact hc
      · exact h2 x hx
    · rintro ⟨h1, h2⟩
      cases w with
      | nil => simp at h1
      | cons c w => exact ⟨[c], w, rfl, ⟨c, rfl, h2 c (by simp)⟩, by simpa using h1, fun x hx => h2 x (by simp [hx])⟩

end Re
end Verif
