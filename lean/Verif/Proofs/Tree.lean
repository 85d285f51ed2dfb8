import Verif.Model.Tree
import Verif.Spec.Tree
import Verif.Proofs.RegexLang
/-!
# The first match of the grammar for `.tree` files is the right one
-/

namespace Verif
namespace Re

/-- the rests behind the matches of a plain pattern, in backtracking order -/
def restsIter (f : PyStr → List PyStr) (greedy : Bool) : Nat → PyStr → List PyStr
  | 0, s => [s]
  | n + 1, s =>
    let more := ((f s).filter fun t => t.length < s.length).flatMap (restsIter f greedy n)
    if greedy then more ++ [s] else s :: more

def rests : Re → PyStr → List PyStr
  | eps, s => [s]
  | cls p, s => match s with
    | [] => []
    | c :: s => if p c then [s] else []
  | seq a b, s => (rests a s).flatMap (rests b)
  | alt a b, s => rests a s ++ rests b s
  | star g a, s => restsIter (rests a) g s.length s
  | grp _ a, s => rests a s
  | bol, s => [s]
  | eol, s => [s]
  | nla _, s => [s]

theorem run_iter_rests {f : MSt → List MSt} {f' : PyStr → List PyStr} (h : ∀ st, (f st).map MSt.rest = f' st.rest) (g : Bool) :
    ∀ n st, (iter f g n st).map MSt.rest = restsIter f' g n st.rest
  | 0, st => rfl
  | n + 1, st => by
    have key : (((f st).filter fun s => s.rest.length < st.rest.length).flatMap (iter f g n)).map MSt.rest =
        ((f' st.rest).filter fun t => t.length < st.rest.length).flatMap (restsIter f' g n) := by
      rw [← h st, List.filter_map, List.flatMap_map, List.map_flatMap]
      congr 1
      funext u
      exact run_iter_rests h g n u
    simp only [iter, restsIter]
    split
    · rw [List.map_append, key]; rfl
    · rw [List.map_cons, key]

theorem run_rests : ∀ (r : Re), Plain r → ∀ st, (run r st).map MSt.rest = rests r st.rest
  | eps, _, st => rfl
  | cls p, _, st => by
    unfold run rests
    cases st.rest with
    | nil => rfl
    | cons c s => dsimp only; split <;> rfl
  | seq a b, h, st => by
    unfold run rests
    rw [List.map_flatMap, ← run_rests a h.1 st, List.flatMap_map]
    congr 1
    funext u
    exact run_rests b h.2 u
  | alt a b, h, st => by
    unfold run rests
    rw [List.map_append, run_rests a h.1, run_rests b h.2]
  | star g a, h, st => by
    unfold run rests
    exact run_iter_rests (run_rests a h) g _ _
  | grp n a, h, st => by
    unfold run rests
    rw [List.map_map, ← run_rests a h st]
    rfl
  | bol, h, _ => h.elim
  | eol, h, _ => h.elim
  | nla _, h, _ => h.elim

theorem mem_rests (r : Re) (hr : Plain r) (s t : PyStr) : t ∈ rests r s ↔ ∃ w, s = w ++ t ∧ Lang r w := by
  have h := run_lang r hr { pos := 0, rest := s } t
  rw [← h]
  have := run_rests r hr { pos := 0, rest := s }
  dsimp only at this
  rw [← this, List.mem_map]

theorem pyMatch_rest (r : Re) (hr : Plain r) (s : PyStr) : (r.pyMatch s).map MSt.rest = (rests r s).head? := by
  rw [pyMatch, ← List.head?_map, run_rests r hr]

/-- all matches at a place end at the same place -/
def UniqueEnd (r : Re) : Prop := ∀ s t u, t ∈ rests r s → u ∈ rests r s → t = u

/-- the words of the language end with their first `c` -/
def EndsWith (c : Char) (r : Re) : Prop := ∀ w, Lang r w → ∃ u, w = u ++ [c] ∧ c ∉ u

theorem EndsWith.unique {c : Char} {r : Re} (hp : Plain r) (h : EndsWith c r) : UniqueEnd r := by
  intro s t u ht hu
  obtain ⟨w, h1, h2⟩ := (mem_rests r hp s t).1 ht
  obtain ⟨w', h3, h4⟩ := (mem_rests r hp s u).1 hu
  obtain ⟨v, rfl, hv⟩ := h w h2
  obtain ⟨v', rfl, hv'⟩ := h w' h4
  subst h1
  have h3' : v ++ (c :: t) = v' ++ (c :: u) := by simpa using h3
  have : ∀ (v v' : PyStr), c ∉ v → c ∉ v' → v ++ (c :: t) = v' ++ (c :: u) → t = u := by
    intro v
    induction v with
    | nil =>
      intro v' _ hv' h
      cases v' with
      | nil => simpa using h
      | cons x v' =>
        simp only [List.nil_append, List.cons_append, List.cons.injEq] at h
        exact absurd (by rw [← h.1]; simp) hv'
    | cons x v ih =>
      intro v' hv hv' h
      cases v' with
      | nil =>
        simp only [List.nil_append, List.cons_append, List.cons.injEq] at h
        exact absurd (by rw [h.1]; simp) hv
      | cons y v' =>
        simp only [List.cons_append, List.cons.injEq] at h
        exact ih v' (fun hh => hv (by simp [hh])) (fun hh => hv' (by simp [hh])) h.2
  exact this v v' hv hv' h3'

/-- flattening: if the first part yields something, it comes first -/
theorem head?_flatMap_cons {f : PyStr → List PyStr} {t x : PyStr} {l : List PyStr} (h : (f t).head? = some x) :
    ((t :: l).flatMap f).head? = some x := by
  rw [List.flatMap_cons, List.head?_append, h]
  rfl

theorem restsIter_head (f : PyStr → List PyStr) : ∀ n s, ∃ t, (restsIter f true n s).head? = some t
  | 0, s => ⟨s, rfl⟩
  | n + 1, s => by
    simp only [restsIter, if_true, List.head?_append]
    cases (((f s).filter fun t => t.length < s.length).flatMap (restsIter f true n)).head? with
    | none => exact ⟨s, rfl⟩
    | some t => exact ⟨t, rfl⟩

/-- `Bad` states are those behind which nothing acceptable follows -/
theorem restsIter_longest {f : PyStr → List PyStr} {Bad : PyStr → Prop}
    (hshort : ∀ s, ∀ t ∈ f s, t.length < s.length)
    (hbad : ∀ s, f s ≠ [] → Bad s)
    (hf : ∀ s t l, f s = t :: l → ∀ u ∈ l, u = t ∨ (Bad u ∧ f u = [])) :
    ∀ n s t, (restsIter f true n s).head? = some t → ∀ u ∈ restsIter f true n s, u = t ∨ Bad u
  | 0, s, t, h, u, hu => by
    simp only [restsIter, List.mem_singleton, List.head?_cons, Option.some.injEq] at h hu
    exact .inl (hu.trans h)
  | n + 1, s, t, h, u, hu => by
    simp only [restsIter, if_true] at h hu
    have hfil : (f s).filter (fun t => t.length < s.length) = f s := by
      rw [List.filter_eq_self]
      intro a ha
      simpa using hshort s a ha
    rw [hfil] at h hu
    cases hs : f s with
    | nil =>
      rw [hs] at h hu
      simp only [List.flatMap_nil, List.nil_append, List.mem_singleton, List.head?_cons, Option.some.injEq] at h hu
      exact .inl (hu.trans h)
    | cons v l =>
      rw [hs] at h hu
      obtain ⟨x, hx⟩ := restsIter_head f n v
      rw [List.head?_append, head?_flatMap_cons hx] at h
      have hxt : x = t := by simpa using h
      subst hxt
      rcases List.mem_append.1 hu with hu | hu
      · obtain ⟨y, hy, hu'⟩ := List.mem_flatMap.1 hu
        have hyv : y = v ∨ (Bad y ∧ f y = []) := by
          rcases List.mem_cons.1 hy with rfl | hy
          · exact .inl rfl
          · exact hf s v l hs y hy
        rcases hyv with rfl | ⟨hb, hn⟩
        · exact restsIter_longest hshort hbad hf n y x hx u hu'
        · have : u = y := by
            cases n with
            | zero => simpa [restsIter] using hu'
            | succ n => simpa [restsIter, hn] using hu'
          rw [this]
          exact .inr hb
      · rw [List.mem_singleton] at hu
        subst hu
        exact .inr (hbad u (by rw [hs]; simp))

/-- neither anchors nor lookaheads, as a decision procedure -/
def isPlain : Re → Bool
  | eps => true
  | cls _ => true
  | seq a b => isPlain a && isPlain b
  | alt a b => isPlain a && isPlain b
  | star _ a => isPlain a
  | grp _ a => isPlain a
  | bol => false
  | eol => false
  | nla _ => false

theorem plain_of_isPlain : ∀ r : Re, isPlain r = true → Plain r
  | eps, _ => trivial
  | cls _, _ => trivial
  | seq a b, h => by
    rw [isPlain, Bool.and_eq_true] at h
    exact ⟨plain_of_isPlain a h.1, plain_of_isPlain b h.2⟩
  | alt a b, h => by
    rw [isPlain, Bool.and_eq_true] at h
    exact ⟨plain_of_isPlain a h.1, plain_of_isPlain b h.2⟩
  | star _ a, h => plain_of_isPlain a h
  | grp _ a, h => plain_of_isPlain a h
  | bol, h => by cases h
  | eol, h => by cases h
  | nla _, h => by cases h

/-- no character class of the pattern contains `c` -/
def avoids (c : Char) : Re → Bool
  | cls p => !p c
  | seq a b => avoids c a && avoids c b
  | alt a b => avoids c a && avoids c b
  | star _ a => avoids c a
  | grp _ a => avoids c a
  | _ => true

theorem not_mem_of_avoids {c : Char} : ∀ (r : Re) (w : PyStr), avoids c r = true → Lang r w → c ∉ w
  | eps, w, _, h => by rw [show w = [] from h]; simp
  | cls p, w, ha, h => by
    obtain ⟨d, rfl, hd⟩ := h
    rw [avoids] at ha
    intro hm
    rw [List.mem_singleton] at hm
    subst hm
    rw [hd] at ha
    cases ha
  | seq a b, w, ha, h => by
    obtain ⟨u, v, rfl, h1, h2⟩ := h
    rw [avoids, Bool.and_eq_true] at ha
    intro hm
    rcases List.mem_append.1 hm with hm | hm
    · exact not_mem_of_avoids a u ha.1 h1 hm
    · exact not_mem_of_avoids b v ha.2 h2 hm
  | alt a b, w, ha, h => by
    rw [avoids, Bool.and_eq_true] at ha
    rcases h with h | h
    · exact not_mem_of_avoids a w ha.1 h
    · exact not_mem_of_avoids b w ha.2 h
  | star _ a, w, ha, h => by
    obtain ⟨ws, rfl, h⟩ := h
    intro hm
    obtain ⟨u, hu, hm⟩ := List.mem_flatten.1 hm
    exact not_mem_of_avoids a u ha (h u hu) hm
  | grp _ a, w, ha, h => not_mem_of_avoids a w ha h
  | bol, w, _, h => by rw [show w = [] from h]; simp
  | eol, w, _, h => by rw [show w = [] from h]; simp
  | nla _, w, _, h => by rw [show w = [] from h]; simp

theorem endsWith_chr (c : Char) : EndsWith c (chr c) := by
  intro w h
  exact ⟨[], by simpa using lang_chr.1 h, by simp⟩

theorem endsWith_seq {c : Char} {a b : Re} (ha : avoids c a = true) (hb : EndsWith c b) : EndsWith c (seq a b) := by
  rintro w ⟨u, v, rfl, h1, h2⟩
  obtain ⟨v', rfl, hv⟩ := hb v h2
  refine ⟨u ++ v', by simp, ?_⟩
  simp [hv, not_mem_of_avoids a u ha h1]

theorem endsWith_alt {c : Char} {a b : Re} (ha : EndsWith c a) (hb : EndsWith c b) : EndsWith c (alt a b) := by
  rintro w (h | h)
  · exact ha w h
  · exact hb w h

theorem EndsWith.shorter {c : Char} {r : Re} (hp : Plain r) (h : EndsWith c r) (s t : PyStr) (ht : t ∈ rests r s) :
    t.length < s.length := by
  obtain ⟨w, rfl, hw⟩ := (mem_rests r hp s t).1 ht
  obtain ⟨u, rfl, -⟩ := h w hw
  simp only [List.length_append, List.length_singleton]
  omega

end Re

namespace TreeGrammar
open Re

theorem endsWith_segment : EndsWith ']' segment := by
  refine endsWith_seq (by decide +kernel) (endsWith_seq (by decide +kernel) (endsWith_seq (by decide +kernel) (endsWith_chr _)))

theorem endsWith_reference : EndsWith ']' segmentGroupReference := by
  refine endsWith_seq (by decide +kernel) (endsWith_seq (by decide +kernel) (endsWith_seq (by decide +kernel)
    (endsWith_seq (by decide +kernel) (endsWith_seq (by decide +kernel) (endsWith_chr _)))))

/-- `,` and an item -/
def commaItem : Re := seq (chr ',') (alt segmentGroupReference segment)
/-- the beginning of a line -/
def lineStart : Re := seq (opt (seq segmentGroupKey (opt (chr ':')))) segment
/-- a line end and a line -/
def nextLine : Re := seq (chr '\n') segmentGroup

theorem endsWith_commaItem : EndsWith ']' commaItem :=
  endsWith_seq (by decide +kernel) (endsWith_alt endsWith_reference endsWith_segment)
theorem endsWith_lineStart : EndsWith ']' lineStart := endsWith_seq (by decide +kernel) endsWith_segment

theorem plain_commaItem : Plain commaItem := plain_of_isPlain _ (by decide +kernel)
theorem plain_lineStart : Plain lineStart := plain_of_isPlain _ (by decide +kernel)
theorem plain_nextLine : Plain nextLine := plain_of_isPlain _ (by decide +kernel)
theorem plain_segmentGroup : Plain segmentGroup := plain_of_isPlain _ (by decide +kernel)
theorem plain_segmentGroupChain : Plain segmentGroupChain := plain_of_isPlain _ (by decide +kernel)

theorem rests_segmentGroup (s : PyStr) : rests segmentGroup s = (rests lineStart s).flatMap (rests (star true commaItem)) := by
  show (rests (opt (seq segmentGroupKey (opt (chr ':')))) s).flatMap
    (fun t => (rests segment t).flatMap (rests (star true commaItem))) = _
  rw [← List.flatMap_assoc]
  rfl

theorem rests_chr_cons (c : Char) (r : Re) (s t : PyStr) (h : t ∈ rests (seq (chr c) r) s) : ∃ s', s = c :: s' ∧ t ∈ rests r s' := by
  obtain ⟨u, hu, ht⟩ := List.mem_flatMap.1 (show t ∈ (rests (chr c) s).flatMap (rests r) from h)
  unfold chr rests at hu
  cases s with
  | nil => cases hu
  | cons d s =>
    dsimp only at hu
    split at hu
    · rename_i hd
      rw [List.mem_singleton] at hu
      subst hu
      exact ⟨u, by rw [eq_of_beq hd], ht⟩
    · cases hu

theorem rests_chr_self (c : Char) (r : Re) (s : PyStr) : rests (seq (chr c) r) (c :: s) = rests r s := by
  show (rests (chr c) (c :: s)).flatMap (rests r) = _
  simp [rests, chr]

/-- behind a line, the first match is the longest; behind all others there is a comma -/
theorem segmentGroup_matches {s t : PyStr} {l : List PyStr} (h : rests segmentGroup s = t :: l) :
    ∀ u ∈ t :: l, u = t ∨ ∃ u', u = ',' :: u' := by
  rw [← h]
  intro u hu
  rw [rests_segmentGroup] at h hu
  have huniq := endsWith_lineStart.unique plain_lineStart
  cases hx : rests lineStart s with
  | nil => rw [hx] at h; cases h
  | cons x xs =>
    obtain ⟨y, hy, hu'⟩ := List.mem_flatMap.1 hu
    have hyx : y = x := huniq s y x hy (by rw [hx]; simp)
    subst hyx
    have hstar : rests (star true commaItem) y = restsIter (rests commaItem) true y.length y := rfl
    obtain ⟨t', ht'⟩ := restsIter_head (rests commaItem) y.length y
    rw [← hstar] at ht'
    have htt : t' = t := by
      have h1 := head?_flatMap_cons (l := xs) ht'
      rw [← hx, h] at h1
      simpa using h1.symm
    subst htt
    rw [hstar] at hu' ht'
    refine restsIter_longest (Bad := fun u => ∃ u', u = ',' :: u') (fun s t ht => endsWith_commaItem.shorter plain_commaItem s t ht)
      ?_ ?_ _ _ _ ht' u hu'
    · intro s hs
      obtain ⟨v, hv⟩ := List.exists_mem_of_ne_nil _ hs
      obtain ⟨s', h1, -⟩ := rests_chr_cons _ _ _ _ hv
      exact ⟨s', h1⟩
    · intro s t l hs u hu
      exact .inl (endsWith_commaItem.unique plain_commaItem s u t (by rw [hs]; simp [hu]) (by rw [hs]; simp))

theorem bracket_mem {s t : PyStr} (h : t ∈ rests segmentGroup s) : '[' ∈ s := by
  obtain ⟨w, rfl, hw⟩ := (mem_rests _ plain_segmentGroup s t).1 h
  obtain ⟨u, v, rfl, -, u', v', rfl, ⟨k, r, rfl, -, b, r', rfl, hb, -⟩, -⟩ := hw
  rw [lang_chr.1 hb]
  simp

theorem nextLine_not_blank {s : PyStr} (h : rests nextLine s ≠ []) : ¬ s.all isWS = true := by
  obtain ⟨v, hv⟩ := List.exists_mem_of_ne_nil _ h
  obtain ⟨s', rfl, hs'⟩ := rests_chr_cons _ _ _ _ hv
  intro hall
  rw [List.all_eq_true] at hall
  exact absurd (hall '[' (List.mem_cons_of_mem _ (bracket_mem hs'))) (by decide)

theorem nextLine_comma (u : PyStr) : rests nextLine (',' :: u) = [] := by
  cases h : rests nextLine (',' :: u) with
  | nil => rfl
  | cons t l =>
    obtain ⟨s', h1, -⟩ := rests_chr_cons _ _ _ t (show t ∈ rests nextLine (',' :: u) by rw [h]; simp)
    simp at h1

theorem nextLine_shorter (s t : PyStr) (h : t ∈ rests nextLine s) : t.length < s.length := by
  obtain ⟨s', rfl, hs'⟩ := rests_chr_cons _ _ _ _ h
  obtain ⟨w, rfl, -⟩ := (mem_rests _ plain_segmentGroup _ _).1 hs'
  simp only [List.length_cons, List.length_append]
  omega

theorem comma_not_blank (u : PyStr) : ¬ (',' :: u).all isWS = true := by
  simp only [List.all_cons, Bool.and_eq_true]
  exact fun h => absurd h.1 (by decide)

theorem nextLine_matches {s t : PyStr} {l : List PyStr} (h : rests nextLine s = t :: l) :
    ∀ u ∈ l, u = t ∨ (¬ u.all isWS = true ∧ rests nextLine u = []) := by
  intro u hu
  obtain ⟨s', rfl, -⟩ := rests_chr_cons _ _ _ t (show t ∈ rests nextLine s by rw [h]; simp)
  rw [show rests nextLine ('\n' :: s') = rests segmentGroup s' from rests_chr_self _ _ _] at h
  rcases segmentGroup_matches h u (by simp [hu]) with rfl | ⟨u', rfl⟩
  · exact .inl rfl
  · exact .inr ⟨comma_not_blank u', nextLine_comma u'⟩

/-- if there is a match of the whole with nothing but ignored characters behind it, it is the first match -/
theorem chain_first {s u : PyStr} (hu : u ∈ rests segmentGroupChain s) (hb : u.all isWS = true) :
    (rests segmentGroupChain s).head? = some u := by
  obtain ⟨s1, rfl, h1⟩ := rests_chr_cons _ _ _ _ hu
  obtain ⟨s2, rfl, h2⟩ := rests_chr_cons _ _ _ _ h1
  have he : rests segmentGroupChain ('/' :: ':' :: s2) = (rests segmentGroup s2).flatMap (rests (star true nextLine)) := by
    show rests (seq (chr '/') _) ('/' :: ':' :: s2) = _
    rw [rests_chr_self, rests_chr_self]
    rfl
  rw [he] at hu ⊢
  have hstar : ∀ y, rests (star true nextLine) y = restsIter (rests nextLine) true y.length y := fun _ => rfl
  cases hx : rests segmentGroup s2 with
  | nil => rw [hx] at hu; cases hu
  | cons x xs =>
    obtain ⟨y, hy, hu'⟩ := List.mem_flatMap.1 hu
    obtain ⟨t, ht⟩ := restsIter_head (rests nextLine) x.length x
    rw [← hstar] at ht
    rw [head?_flatMap_cons ht]
    rw [hx] at hy
    rcases segmentGroup_matches hx y hy with rfl | ⟨y', rfl⟩
    · rw [hstar] at hu' ht
      rcases restsIter_longest (Bad := fun u => ¬ u.all isWS = true) nextLine_shorter (fun s hs => nextLine_not_blank hs)
        (fun s t l h => nextLine_matches h) _ _ _ ht u hu' with rfl | h
      · rfl
      · exact absurd hb h
    · rw [hstar] at hu'
      have : u = ',' :: y' := by
        rw [List.length_cons] at hu'
        simpa [restsIter, nextLine_comma] using hu'
      rw [this] at hb
      exact absurd hb (comma_not_blank y')

theorem larkParse_ok {text token : PyStr} : larkParse text = .ok token ↔
    ∃ a b, text = a ++ token ++ b ∧ a.all isWS = true ∧ b.all isWS = true ∧ Lang segmentGroupChain token := by
  have hrest := pyMatch_rest segmentGroupChain plain_segmentGroupChain (text.dropWhile isWS)
  have hdrop : text = text.takeWhile isWS ++ text.dropWhile isWS := List.takeWhile_append_dropWhile.symm
  constructor
  · intro h
    unfold larkParse at h
    dsimp only at h
    cases hm : segmentGroupChain.pyMatch (text.dropWhile isWS) with
    | none => rw [hm] at h; cases h
    | some m =>
      rw [hm] at h hrest
      dsimp only at h
      split at h
      · rename_i hb
        injection h with h
        have hmem : m.rest ∈ rests segmentGroupChain (text.dropWhile isWS) := List.mem_of_head? (by rw [← hrest]; rfl)
        obtain ⟨w, hw, hl⟩ := (mem_rests _ plain_segmentGroupChain _ _).1 hmem
        have hw' : token = w := by rw [← h, hw]; simp
        subst hw'
        refine ⟨text.takeWhile isWS, m.rest, ?_, ?_, hb, hl⟩
        · rw [List.append_assoc, ← hw]; exact hdrop
        · exact List.all_takeWhile
      · cases h
  · rintro ⟨a, b, rfl, ha, hb, hl⟩
    have hl' := hl
    obtain ⟨c, w, rfl, hc, -⟩ := hl
    have hd : (a ++ (c ++ w) ++ b).dropWhile isWS = c ++ w ++ b := by
      rw [lang_chr.1 hc, List.append_assoc]
      rw [List.dropWhile_append_of_pos (by simpa using ha)]
      rw [List.append_assoc, List.singleton_append, List.dropWhile_cons_of_neg (by decide)]
    have hmem : b ∈ rests segmentGroupChain (c ++ w ++ b) := (mem_rests _ plain_segmentGroupChain _ _).2 ⟨_, rfl, hl'⟩
    rw [hd, chain_first hmem hb] at hrest
    unfold larkParse
    dsimp only
    rw [hd]
    cases hm : segmentGroupChain.pyMatch (c ++ w ++ b) with
    | none => rw [hm] at hrest; cases hrest
    | some m =>
      rw [hm] at hrest
      have : m.rest = b := by simpa using hrest
      dsimp only
      rw [this, hb, List.length_append (as := c ++ w), Nat.add_sub_cancel, List.take_left]
      rfl

end TreeGrammar
end Verif
