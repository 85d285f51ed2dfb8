import Verif.Proofs.Regex
import Verif.Proofs.Lcp
import Verif.Model.Edifact
/-! json paths of edifact stacks -/

namespace Verif
open Re

/-! ## decimal numbers -/

theorem digitVal_digitChar : ∀ n < 10, isDigit (digitChar n) = true ∧ digitVal (digitChar n) = n := by decide

theorem decToNat_append (s : PyStr) (c : Char) : decToNat (s ++ [c]) = 10 * decToNat s + digitVal c := by
  simp [decToNat]

theorem natToDecAux_spec (fuel n : Nat) (h : n ≤ fuel) :
    natToDecAux fuel n ≠ [] ∧ (natToDecAux fuel n).all isDigit = true ∧ decToNat (natToDecAux fuel n) = n := by
  induction fuel generalizing n with
  | zero =>
    obtain rfl : n = 0 := by omega
    decide
  | succ fuel ih =>
    unfold natToDecAux
    split
    · next hn =>
      obtain ⟨h1, h2⟩ := digitVal_digitChar n hn
      exact ⟨by simp, by simp [h1], by simp [decToNat, h2]⟩
    · obtain ⟨_, h2, h3⟩ := ih (n / 10) (by omega)
      obtain ⟨h4, h5⟩ := digitVal_digitChar (n % 10) (by omega)
      refine ⟨by simp, by simp only [List.all_append, h2]; simp [h4], ?_⟩
      rw [decToNat_append, h3, h5]
      omega

theorem natToDec_spec (n : Nat) : natToDec n ≠ [] ∧ (natToDec n).all isDigit = true ∧ decToNat (natToDec n) = n :=
  natToDecAux_spec n n (Nat.le_refl n)

/-! ## first results of a backtracking matcher -/

theorem head?_of_forall {α} {l : List α} {a : α} (hne : a ∈ l) (h : ∀ x ∈ l, x = a) : l.head? = some a := by
  cases l with
  | nil => cases hne
  | cons b l => rw [h b List.mem_cons_self]; rfl

theorem head?_seq {a b : Re} {st u t : MSt} (hu : u ∈ run a st) (hall : ∀ x ∈ run a st, x = u)
    (ht : (run b u).head? = some t) : (run (seq a b) st).head? = some t := by
  have h := head?_of_forall hu hall
  simp only [run]
  cases hl : run a st with
  | nil => rw [hl] at hu; cases hu
  | cons x l =>
    rw [hl] at h
    simp only [List.head?_cons, Option.some.injEq] at h
    subst h
    rw [List.flatMap_cons, List.head?_append, ht]; rfl

theorem head?_alt_left {a b : Re} {st t : MSt} (h : (run a st).head? = some t) : (run (alt a b) st).head? = some t := by
  simp only [run, List.head?_append, h]; rfl

theorem head?_alt_right {a b : Re} {st t : MSt} (h : run a st = []) (hb : (run b st).head? = some t) :
    (run (alt a b) st).head? = some t := by
  simp only [run, h, List.nil_append, hb]

theorem mem_plusLazy_cls {p : Char → Bool} {st t : MSt} : t ∈ run (plusLazy (cls p)) st ↔
    ∃ w s, w ≠ [] ∧ st.rest = w ++ s ∧ w.all p = true ∧ t = adv st w s := by
  simp only [plusLazy, mem_seq, mem_cls, mem_star_cls]
  constructor
  · rintro ⟨u, ⟨c, s, hs, hp, rfl⟩, w, s', hs', hw, rfl⟩
    simp only [adv_rest] at hs'
    exact ⟨c :: w, s', by simp, by simp [hs, hs'], by simp [hp, hw], by rw [adv_adv]; rfl⟩
  · rintro ⟨w, s, hne, hs, hw, rfl⟩
    cases w with
    | nil => exact absurd rfl hne
    | cons c w =>
      simp only [List.all_cons, Bool.and_eq_true] at hw
      exact ⟨_, ⟨c, w ++ s, hs, hw.1, rfl⟩, w, s, rfl, hw.2, by rw [adv_adv]; rfl⟩

/-- splitting at the first characters outside of a class is unique -/
theorem split_unique {p : Char → Bool} {w s w' s' : PyStr} (h : w ++ s = w' ++ s') (hw : w.all p = true)
    (hw' : w'.all p = true) (hs : ∀ c r, s = c :: r → p c = false) (hs' : ∀ c r, s' = c :: r → p c = false) :
    w = w' ∧ s = s' := by
  induction w generalizing w' with
  | nil =>
    cases w' with
    | nil => exact ⟨rfl, h⟩
    | cons c w' =>
      have := hs c _ h
      simp only [List.all_cons, Bool.and_eq_true] at hw'
      rw [hw'.1] at this; cases this
  | cons c w ih =>
    simp only [List.all_cons, Bool.and_eq_true] at hw
    cases w' with
    | nil =>
      have := hs' c _ h.symm
      rw [hw.1] at this; cases this
    | cons c' w' =>
      simp only [List.all_cons, Bool.and_eq_true] at hw'
      simp only [List.cons_append, List.cons.injEq] at h
      obtain ⟨rfl, h⟩ := h
      obtain ⟨rfl, rfl⟩ := ih h hw.2 hw'.2
      exact ⟨rfl, rfl⟩

theorem findIterAux_match {r : Re} {fuel pos : Nat} {rest : PyStr} {st : MSt}
    (h : (run r { pos := pos, rest := rest }).head? = some st) (hlt : st.rest.length < rest.length) :
    findIterAux r (fuel + 1) pos rest = st :: findIterAux r fuel st.pos st.rest := by
  conv => lhs; unfold findIterAux
  simp only [h, hlt, if_true]

theorem findIterAux_noMatch {r : Re} {fuel pos : Nat} {c : Char} {rest : PyStr}
    (h : run r { pos := pos, rest := c :: rest } = []) :
    findIterAux r (fuel + 1) pos (c :: rest) = findIterAux r fuel (pos + 1) rest := by
  conv => lhs; unfold findIterAux
  simp only [h, List.head?_nil]

/-! ## the pattern of a level -/

/-- no square brackets -/
def noBracket (c : Char) : Bool := c != '[' && c != ']'

/-- the part of the pattern that matches `["name"]` -/
def levelNameRe : Re :=
  .seq (.str py!"[\"") (.seq (.grp 1 (.plusLazy (.cls fun c => c != '[' && c != ']'))) (.str py!"\"]"))

/-- the part of the pattern that matches `[index]` -/
def levelIndexRe : Re := .seq (.chr '[') (.seq (.grp 2 (.plus (.cls isDigit))) (.chr ']'))

/-- the state behind `["name"]` -/
def afterName (pos : Nat) (name s : PyStr) : MSt :=
  { pos := pos + name.length + 4, rest := s, caps := [(1, name)] }

theorem name_split {w name s s' : PyStr} (hw : w.all (fun c => c != '[' && c != ']') = true)
    (hname : name.all (fun c => c != '[' && c != ']') = true)
    (h : w ++ (py!"\"]" ++ s') = name ++ (py!"\"]" ++ s)) : w = name ∧ s' = s := by
  have h' : (w ++ ['"']) ++ (']' :: s') = (name ++ ['"']) ++ (']' :: s) := by simpa using h
  obtain ⟨h1, h2⟩ := split_unique (p := fun c => c != '[' && c != ']') h' (by rw [List.all_append, hw]; decide)
    (by rw [List.all_append, hname]; decide) (by rintro c r he; cases he; decide) (by rintro c r he; cases he; decide)
  exact ⟨List.append_cancel_right h1, (List.cons.inj h2).2⟩

theorem run_levelRe (st : MSt) : run EdifactStack.levelRe st = (run levelNameRe st).flatMap (run (.opt levelIndexRe)) := by
  simp only [EdifactStack.levelRe, levelNameRe, levelIndexRe, run, List.flatMap_assoc]

theorem mem_levelNameRe {pos : Nat} {name s : PyStr} (hne : name ≠ []) (hname : name.all noBracket = true) {t : MSt} :
    t ∈ run levelNameRe { pos := pos, rest := py!"[\"" ++ name ++ py!"\"]" ++ s } ↔ t = afterName pos name s := by
  simp only [levelNameRe, mem_seq, mem_str, mem_grp, mem_plusLazy_cls]
  constructor
  · rintro ⟨u, ⟨s1, h1, rfl⟩, v, ⟨_, ⟨w, s2, hw, h2, hall, rfl⟩, rfl⟩, s3, h3, rfl⟩
    simp only [adv_rest] at h1 h2 h3
    have hs1 : s1 = name ++ (py!"\"]" ++ s) := by
      have : py!"[\"" ++ s1 = py!"[\"" ++ (name ++ (py!"\"]" ++ s)) := by rw [← h1]; simp
      exact List.append_cancel_left this
    subst hs1
    rw [h3] at h2
    obtain ⟨rfl, rfl⟩ := name_split hall hname h2.symm
    subst h3
    simp only [adv, afterName, MSt.mk.injEq, true_and]
    constructor
    · simp only [List.length_cons, List.length_nil]; omega
    · simp
  · rintro rfl
    refine ⟨_, ⟨name ++ (py!"\"]" ++ s), by simp, rfl⟩, _, ⟨_, ⟨name, py!"\"]" ++ s, hne, rfl, hname, rfl⟩, rfl⟩, s, rfl, ?_⟩
    simp only [adv, afterName, MSt.mk.injEq, true_and]
    constructor
    · simp only [List.length_cons, List.length_nil]; omega
    · simp

/-- the state behind `[index]` -/
def afterIndex (st : MSt) (d s : PyStr) : MSt :=
  { pos := st.pos + d.length + 2, rest := s, caps := (2, d) :: st.caps }

theorem mem_levelIndexRe {st : MSt} {d s : PyStr} (hne : d ≠ []) (hd : d.all isDigit = true)
    (hst : st.rest = py!"[" ++ d ++ py!"]" ++ s) {t : MSt} : t ∈ run levelIndexRe st ↔ t = afterIndex st d s := by
  simp only [levelIndexRe, mem_seq, mem_chr, mem_grp, mem_plus_cls]
  have hdig : ∀ c r, (']' :: s : PyStr) = c :: r → isDigit c = false := by rintro c r h; cases h; decide
  constructor
  · rintro ⟨u, ⟨s1, h1, rfl⟩, v, ⟨_, ⟨w, s2, hw, h2, hall, rfl⟩, rfl⟩, s3, h3, rfl⟩
    simp only [adv_rest] at h1 h2 h3
    rw [hst] at h1
    have hs1 : s1 = d ++ (']' :: s) := by simpa using h1.symm
    subst hs1 h3
    obtain ⟨rfl, h4⟩ := split_unique h2 hd hall hdig (by rintro c r h; cases h; decide)
    obtain ⟨_, rfl⟩ := List.cons.inj h4
    simp only [adv, afterIndex, MSt.mk.injEq, true_and]
    constructor
    · simp only [List.length_cons, List.length_nil]; omega
    · simp
  · rintro rfl
    refine ⟨_, ⟨d ++ (']' :: s), by simp [hst], rfl⟩, _, ⟨_, ⟨d, ']' :: s, hne, rfl, hd, rfl⟩, rfl⟩, s, rfl, ?_⟩
    simp only [adv, afterIndex, MSt.mk.injEq, true_and]
    constructor
    · simp only [List.length_cons, List.length_nil]; omega
    · simp

theorem head?_flatMap_singleton {α β} {l : List α} {f : α → List β} {a : α} {b : β} (ha : ∀ x, x ∈ l ↔ x = a)
    (hb : (f a).head? = some b) : (l.flatMap f).head? = some b := by
  have h := head?_of_forall ((ha a).2 rfl) (fun x hx => (ha x).1 hx)
  cases l with
  | nil => cases h
  | cons x l =>
    simp only [List.head?_cons, Option.some.injEq] at h
    subst h
    rw [List.flatMap_cons, List.head?_append, hb]; rfl

/-- a level with index -/
theorem head_levelRe_index {pos : Nat} {name d s : PyStr} (hne : name ≠ []) (hname : name.all noBracket = true)
    (hd : d ≠ []) (hd2 : d.all isDigit = true) :
    (run EdifactStack.levelRe { pos := pos, rest := py!"[\"" ++ name ++ py!"\"]" ++ (py!"[" ++ d ++ py!"]" ++ s) }).head? =
      some { pos := pos + name.length + d.length + 6, rest := s, caps := [(2, d), (1, name)] } := by
  rw [run_levelRe]
  refine head?_flatMap_singleton (fun x => mem_levelNameRe hne hname) ?_
  have : afterIndex (afterName pos name (py!"[" ++ d ++ py!"]" ++ s)) d s =
      { pos := pos + name.length + d.length + 6, rest := s, caps := [(2, d), (1, name)] } := by
    simp only [afterIndex, afterName, MSt.mk.injEq, and_true]; omega
  rw [← this]
  refine head?_alt_left (head?_of_forall ((mem_levelIndexRe hd hd2 rfl).2 rfl) fun x hx => (mem_levelIndexRe hd hd2 rfl).1 hx)

/-- a level without index, if no digit follows after an opening bracket -/
theorem head_levelRe_noIndex {pos : Nat} {name s : PyStr} (hne : name ≠ []) (hname : name.all noBracket = true)
    (hs : ∀ c r, s = '[' :: c :: r → isDigit c = false) :
    (run EdifactStack.levelRe { pos := pos, rest := py!"[\"" ++ name ++ py!"\"]" ++ s }).head? =
      some (afterName pos name s) := by
  rw [run_levelRe]
  refine head?_flatMap_singleton (fun x => mem_levelNameRe hne hname) ?_
  refine head?_alt_right ?_ rfl
  rw [List.eq_nil_iff_forall_not_mem]
  intro t ht
  simp only [levelIndexRe, mem_seq, mem_chr, mem_grp, mem_plus_cls] at ht
  obtain ⟨u, ⟨s1, h1, rfl⟩, v, ⟨_, ⟨w, s2, hw, h2, hall, rfl⟩, rfl⟩, _⟩ := ht
  simp only [adv_rest, afterName] at h1 h2
  cases w with
  | nil => exact hw rfl
  | cons c w =>
    simp only [List.all_cons, Bool.and_eq_true] at hall
    have := hs c (w ++ s2) (by rw [h1, h2]; rfl)
    rw [hall.1] at this; cases this

/-! ## paths -/

theorem toJsonPath_eq (s : EdifactStack) : s.toJsonPath = py!"$" ++ s.levels.flatMap EdifactStack.levelPath := by
  unfold EdifactStack.toJsonPath
  generalize py!"$" = init
  induction s.levels generalizing init with
  | nil => simp
  | cons l ls ih => rw [List.foldl_cons, ih]; simp

/-- the level that is read back -/
def readBack (l : EdifactStackLevel) : EdifactStackLevel :=
  { name := l.name, isGroupable := l.isGroupable || l.index.isSome
    index := match l.index with
      | some i => some i
      | none => if l.isGroupable then some 0 else none }

theorem path_starts {ls : List EdifactStackLevel} {c r} (h : ls.flatMap EdifactStack.levelPath = '[' :: c :: r) :
    isDigit c = false := by
  cases ls with
  | nil => simp at h
  | cons l ls =>
    rw [List.flatMap_cons] at h
    unfold EdifactStack.levelPath at h
    simp only [List.cons_append, List.nil_append, List.append_assoc, List.cons.injEq, true_and] at h
    rw [← h.1]; decide

theorem findIter_levels (ls : List EdifactStackLevel) (fuel pos : Nat)
    (hfuel : (ls.flatMap EdifactStack.levelPath).length < fuel)
    (hls : ∀ l ∈ ls, l.name ≠ [] ∧ l.name.all noBracket = true ∧ ∀ i, l.index = some i → 0 ≤ i) :
    (findIterAux EdifactStack.levelRe fuel pos (ls.flatMap EdifactStack.levelPath)).map EdifactStack.levelOfMatch =
      ls.map readBack := by
  induction ls generalizing fuel pos with
  | nil =>
    cases fuel with
    | zero => simp at hfuel
    | succ fuel =>
      have hrun : run EdifactStack.levelRe { pos := pos, rest := [] } = [] := by
        rw [List.eq_nil_iff_forall_not_mem]
        intro t ht
        rw [EdifactStack.levelRe, mem_seq] at ht
        obtain ⟨u, hu, _⟩ := ht
        obtain ⟨s, hs, _⟩ := mem_str.1 hu
        simp at hs
      simp [findIterAux, hrun]
  | cons l ls ih =>
    obtain ⟨hne, hname, hidx⟩ := hls l List.mem_cons_self
    have hls' := fun l hl => hls l (List.mem_cons_of_mem _ hl)
    cases fuel with
    | zero => simp at hfuel
    | succ fuel =>
      rw [List.flatMap_cons] at hfuel ⊢
      have hstep : ∃ st, (run EdifactStack.levelRe { pos := pos, rest := EdifactStack.levelPath l ++ ls.flatMap EdifactStack.levelPath }).head? = some st ∧
          st.rest = ls.flatMap EdifactStack.levelPath ∧ EdifactStack.levelOfMatch st = readBack l := by
        have withIndex : ∀ n : Nat, EdifactStack.levelPath l = py!"[\"" ++ l.name ++ py!"\"]" ++ (py!"[" ++ natToDec n ++ py!"]") →
            readBack l = { name := l.name, isGroupable := true, index := some (n : Int) } →
            ∃ st, (run EdifactStack.levelRe { pos := pos, rest := EdifactStack.levelPath l ++ ls.flatMap EdifactStack.levelPath }).head? = some st ∧
              st.rest = ls.flatMap EdifactStack.levelPath ∧ EdifactStack.levelOfMatch st = readBack l := by
          intro n hp hr
          obtain ⟨h1, h2, h3⟩ := natToDec_spec n
          refine ⟨{ pos := pos + l.name.length + (natToDec n).length + 6, rest := ls.flatMap EdifactStack.levelPath,
                    caps := [(2, natToDec n), (1, l.name)] }, ?_, rfl, ?_⟩
          · rw [hp, List.append_assoc]
            exact head_levelRe_index hne hname h1 h2
          · rw [hr]
            simp [EdifactStack.levelOfMatch, group, h3]
        cases hi : l.index with
        | some i =>
          obtain ⟨n, rfl⟩ := Int.eq_ofNat_of_zero_le (hidx i hi)
          refine withIndex n ?_ ?_
          · simp only [EdifactStack.levelPath, hi]; rfl
          · simp [readBack, hi]
        | none =>
          cases hg : l.isGroupable with
          | true =>
            refine withIndex 0 ?_ ?_
            · simp only [EdifactStack.levelPath, hi, hg]; rfl
            · simp [readBack, hi, hg]
          | false =>
            refine ⟨afterName pos l.name (ls.flatMap EdifactStack.levelPath), ?_, rfl, ?_⟩
            · have : EdifactStack.levelPath l = py!"[\"" ++ l.name ++ py!"\"]" := by
                simp [EdifactStack.levelPath, hi, hg]
              rw [this]
              exact head_levelRe_noIndex hne hname fun c r h => path_starts h
            · simp [readBack, hi, hg, EdifactStack.levelOfMatch, group, afterName]
      obtain ⟨st, h1, h2, h3⟩ := hstep
      have hlen : 0 < (EdifactStack.levelPath l).length := by simp [EdifactStack.levelPath]
      rw [List.length_append] at hfuel
      rw [findIterAux_match h1 (by rw [h2, List.length_append]; omega), h2, List.map_cons, h3,
        ih fuel st.pos (by omega) hls', List.map_cons]

theorem fromJsonPath_toJsonPath (s : EdifactStack)
    (hls : ∀ l ∈ s.levels, l.name ≠ [] ∧ l.name.all noBracket = true ∧ ∀ i, l.index = some i → 0 ≤ i) :
    EdifactStack.fromJsonPath s.toJsonPath = { levels := s.levels.map readBack } := by
  rw [toJsonPath_eq]
  unfold EdifactStack.fromJsonPath findIter
  have hrun : run EdifactStack.levelRe { pos := 0, rest := py!"$" ++ s.levels.flatMap EdifactStack.levelPath } = [] := by
    rw [List.eq_nil_iff_forall_not_mem]
    intro t ht
    rw [EdifactStack.levelRe, mem_seq] at ht
    obtain ⟨u, hu, _⟩ := ht
    obtain ⟨s, hs, _⟩ := mem_str.1 hu
    simp at hs
  simp only [List.cons_append, List.nil_append] at hrun ⊢
  rw [findIterAux_noMatch hrun, EdifactStack.mk.injEq]
  exact findIter_levels s.levels _ _ (by simp) hls

end Verif
