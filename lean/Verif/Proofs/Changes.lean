import Verif.Spec.Navigation
import Verif.Proofs.Sgh
/-! lemmas about the look-ahead and `determine_hierarchy_changes` -/

namespace Verif

/-- for every line the first selected value at or after it -/
def lookAhead (sel : AhbLine → Option PyStr) : List AhbLine → List (Option PyStr)
  | [] => []
  | l :: ls => (l :: ls).findSome? sel :: lookAhead sel ls

theorem lookAhead_length (sel) (ls : List AhbLine) : (lookAhead sel ls).length = ls.length := by
  induction ls with
  | nil => rfl
  | cons l ls ih => simp [lookAhead, ih]

theorem lookAhead_getElem? (sel) (ls : List AhbLine) (n : Nat) (h : n < ls.length) :
    (lookAhead sel ls)[n]? = some ((ls.drop n).findSome? sel) := by
  induction ls generalizing n with
  | nil => simp at h
  | cons l ls ih =>
    cases n with
    | zero => simp [lookAhead]
    | succ n => simpa [lookAhead] using ih n (by simpa using h)

theorem lookAhead_none (sel) (ls : List AhbLine) (h : ∀ l ∈ ls, sel l = none) :
    lookAhead sel ls = List.replicate ls.length none := by
  induction ls with
  | nil => rfl
  | cons l ls ih =>
    have h1 : (l :: ls).findSome? sel = none := by
      rw [List.findSome?_eq_none_iff]; exact h
    simp only [lookAhead, h1, List.length_cons, List.replicate_succ]
    rw [ih (fun x hx => h x (by simp [hx]))]

theorem findSome_of_find (sel : AhbLine → Option PyStr) (ls : List AhbLine) :
    (ls.find? fun l => (sel l).isSome).bind sel = ls.findSome? sel := by
  induction ls with
  | nil => rfl
  | cons l ls ih =>
    simp only [List.find?_cons, List.findSome?_cons]
    cases h : sel l <;> simp [h, ih]

/-- the first loop stops exactly before the lines that have nothing at or after them -/
theorem enhanceLoop_spec (sel : AhbLine → Option PyStr) (ls : List AhbLine) :
    ∃ pre post, ls = pre ++ post ∧ (∀ l ∈ post, sel l = none) ∧
      (enhanceLoop (fun l => (sel l).isSome) sel ls).map Prod.fst = pre ∧
      (enhanceLoop (fun l => (sel l).isSome) sel ls).map Prod.snd ++ List.replicate post.length none
        = lookAhead sel ls := by
  induction ls with
  | nil => exact ⟨[], [], rfl, by simp, rfl, rfl⟩
  | cons l ls ih =>
    obtain ⟨pre, post, h1, h2, h3, h4⟩ := ih
    by_cases hp : (sel l).isSome = true
    · refine ⟨l :: pre, post, by simp [h1], h2, ?_, ?_⟩
      · simp [enhanceLoop, hp, h3]
      · obtain ⟨v, hv⟩ := Option.isSome_iff_exists.1 hp
        simp [enhanceLoop, lookAhead, h4, hv]
    · cases hf : (l :: ls).find? fun l => (sel l).isSome with
      | none =>
        have hall : ∀ x ∈ l :: ls, sel x = none := by
          intro x hx
          have := List.find?_eq_none.1 hf x hx
          simpa using this
        refine ⟨[], l :: ls, rfl, hall, ?_, ?_⟩
        · simp [enhanceLoop, hp, hf]
        · simp [enhanceLoop, hp, hf, lookAhead_none sel (l :: ls) hall]
      | some m =>
        have hm : sel m = (l :: ls).findSome? sel := by
          rw [← findSome_of_find, hf]; rfl
        refine ⟨l :: pre, post, by simp [h1], h2, ?_, ?_⟩
        · simp [enhanceLoop, hp, hf, h3]
        · simp only [enhanceLoop, hp, hf, lookAhead, ← hm]
          simp [h4]

theorem enhanceFill_ok (lines : List AhbLine) (n : Nat) (idx : Int) (h0 : -1 ≤ idx) (h1 : idx + n ≤ lines.length)
    (hne : 0 < n → 0 < lines.length) :
    ∃ r, enhanceFill lines n idx = .ok r ∧ r.map Prod.snd = List.replicate n none := by
  induction n generalizing idx with
  | zero => exact ⟨[], rfl, rfl⟩
  | succ n ih =>
    obtain ⟨r, hr, hs⟩ := ih (idx + 1) (by omega) (by omega) (fun _ => hne (by omega))
    have hlen := hne (by omega)
    have hg : ∃ x, pyGet lines idx = .ok x := by
      unfold pyGet
      have hj : 0 ≤ (if idx < 0 then idx + lines.length else idx) ∧
          (if idx < 0 then idx + lines.length else idx).toNat < lines.length := by
        split <;> omega
      simp only
      rw [if_neg (by omega)]
      rw [List.getElem?_eq_getElem hj.2]
      exact ⟨_, rfl⟩
    obtain ⟨x, hx⟩ := hg
    refine ⟨(x, none) :: r, ?_, ?_⟩
    · simp [enhanceFill, hx, hr, bind, Except.bind, pure, Except.pure]
    · simp [hs, List.replicate_succ]

theorem enhance_spec (sel : AhbLine → Option PyStr) (lines : List AhbLine) :
    ∃ r, enhance (fun l => (sel l).isSome) sel lines = .ok r ∧ r.map Prod.snd = lookAhead sel lines := by
  obtain ⟨pre, post, h1, h2, h3, h4⟩ := enhanceLoop_spec sel lines
  have hl : (enhanceLoop (fun l => (sel l).isSome) sel lines).length = pre.length := by
    rw [← h3]; simp
  have hlen : lines.length = pre.length + post.length := by rw [h1]; simp
  obtain ⟨r, hr, hs⟩ := enhanceFill_ok lines
    (lines.length - (enhanceLoop (fun l => (sel l).isSome) sel lines).length)
    (((enhanceLoop (fun l => (sel l).isSome) sel lines).length : Int) - 1) (by omega) (by omega) (by omega)
  refine ⟨enhanceLoop (fun l => (sel l).isSome) sel lines ++ r, ?_, ?_⟩
  · simp [enhance, hr, bind, Except.bind, pure, Except.pure]
  · rw [List.map_append, hs, ← h4, hl, hlen]
    simp

theorem findSome?_drop_none (sel : AhbLine → Option PyStr) (pre post : List AhbLine) (h : ∀ l ∈ post, sel l = none)
    (n : Nat) (hn : pre.length ≤ n) : ((pre ++ post).drop n).findSome? sel = none := by
  rw [List.findSome?_eq_none_iff]
  intro x hx
  rw [List.drop_append, List.drop_eq_nil_of_le hn, List.nil_append] at hx
  exact h x (List.mem_of_mem_drop hx)

theorem enhance_kept (sel : AhbLine → Option PyStr) (lines : List AhbLine) :
    ∃ r, enhance (fun l => (sel l).isSome) sel lines = .ok r ∧ r.length = lines.length ∧
      ∀ n line, lines[n]? = some line → ∃ l, r[n]? = some (l, (lines.drop n).findSome? sel) ∧
        ((lines.drop n).findSome? sel ≠ none → l = line) := by
  obtain ⟨r, hr, hs⟩ := enhance_spec sel lines
  have hlen : r.length = lines.length := by
    have := congrArg List.length hs
    simpa [lookAhead_length] using this
  refine ⟨r, hr, hlen, ?_⟩
  intro n line hn
  have hlt : n < lines.length := (List.getElem?_eq_some_iff.1 hn).1
  have h2 := lookAhead_getElem? sel lines n hlt
  rw [← hs, List.getElem?_map] at h2
  cases hrn : r[n]? with
  | none => simp [hrn] at h2
  | some p =>
    obtain ⟨l, v⟩ := p
    simp only [hrn, Option.map_some, Option.some.injEq] at h2
    subst h2
    refine ⟨l, rfl, ?_⟩
    intro hne
    obtain ⟨pre, post, h1, h2, h3, h4⟩ := enhanceLoop_spec sel lines
    have hpre : n < pre.length := by
      apply Nat.lt_of_not_le
      intro hle
      apply hne
      rw [h1]; exact findSome?_drop_none sel pre post h2 n hle
    have hlp : (enhanceLoop (fun l => (sel l).isSome) sel lines).length = pre.length := by rw [← h3]; simp
    simp only [enhance, bind, Except.bind] at hr
    split at hr
    · cases hr
    · next rest _ =>
      simp only [pure, Except.pure, Except.ok.injEq] at hr
      rw [← hr, List.getElem?_append_left (by omega)] at hrn
      have h5 : ((enhanceLoop (fun l => (sel l).isSome) sel lines).map Prod.fst)[n]? = some l := by
        rw [List.getElem?_map, hrn]; rfl
      rw [h3] at h5
      rw [h1, List.getElem?_append_left hpre, h5] at hn
      exact Option.some.inj hn

theorem enhanceFill_get (lines : List AhbLine) (n : Nat) : ∀ (idx : Int) {r : List (AhbLine × Option PyStr)},
    enhanceFill lines n idx = .ok r → ∀ (j : Nat) l v, r[j]? = some (l, v) → pyGet lines (idx + (j : Int)) = .ok l := by
  induction n with
  | zero =>
    intro idx r h
    cases h
    simp
  | succ n ih =>
    intro idx r h j l v hj
    rw [enhanceFill] at h
    cases h1 : pyGet lines idx with
    | error e => rw [h1] at h; cases h
    | ok x =>
      rw [h1] at h
      cases h2 : enhanceFill lines n (idx + 1) with
      | error e => rw [h2] at h; cases h
      | ok rest =>
        rw [h2] at h
        cases h
        cases j with
        | zero =>
          cases hj
          simpa using h1
        | succ j =>
          have := ih (idx + 1) h2 j l v (by simpa using hj)
          rw [← this]
          congr 1
          omega

/-- behind the last match, the line before is returned; if there is no match at all, the last line is returned for the first one -/
theorem enhance_behind (sel : AhbLine → Option PyStr) (lines : List AhbLine) {r : List (AhbLine × Option PyStr)}
    (hr : enhance (fun l => (sel l).isSome) sel lines = .ok r) {n : Nat} {l : AhbLine} {v : Option PyStr} (hn : r[n]? = some (l, v))
    (hv : (lines.drop n).findSome? sel = none) : lines.getLast? = some l ∧ n = 0 ∨ ∃ m, n = m + 1 ∧ lines[m]? = some l := by
  obtain ⟨pre, post, h1, h2, h3, h4⟩ := enhanceLoop_spec sel lines
  have hlp : (enhanceLoop (fun l => (sel l).isSome) sel lines).length = pre.length := by rw [← h3]; simp
  have hpre : pre.length ≤ n := by
    apply Nat.le_of_not_lt
    intro hlt
    have h5 : ((enhanceLoop (fun l => (sel l).isSome) sel lines).map Prod.snd)[n]? = some none := by
      have h6 := lookAhead_getElem? sel lines n (by rw [h1, List.length_append]; omega)
      rw [hv, ← h4, List.getElem?_append_left (by simpa [hlp] using hlt)] at h6
      exact h6
    have h7 : ∀ ls : List AhbLine, ∀ x ∈ enhanceLoop (fun l => (sel l).isSome) sel ls, x.2 ≠ none := by
      intro ls
      induction ls with
      | nil => simp [enhanceLoop]
      | cons a ls ih =>
        intro x hx
        rw [enhanceLoop] at hx
        split at hx
        · next ha =>
          rcases List.mem_cons.1 hx with rfl | hx
          · simpa [Option.isSome_iff_ne_none] using ha
          · exact ih x hx
        · split at hx
          · cases hx
          · next m hm =>
            rcases List.mem_cons.1 hx with rfl | hx
            · simpa [Option.isSome_iff_ne_none] using List.find?_some hm
            · exact ih x hx
    obtain ⟨x, hx, hx2⟩ := List.mem_map.1 (List.mem_of_getElem? h5)
    exact h7 lines x hx hx2
  simp only [enhance, bind, Except.bind] at hr
  split at hr
  · cases hr
  · next rest hrest =>
    simp only [pure, Except.pure, Except.ok.injEq] at hr
    rw [← hr, List.getElem?_append_right (by omega)] at hn
    have h8 := enhanceFill_get lines _ _ hrest _ l v hn
    rw [hlp] at h8
    cases n with
    | zero =>
      left
      have hp : pre = [] := List.eq_nil_of_length_eq_zero (by omega)
      subst hp
      refine ⟨?_, rfl⟩
      simp only [List.length_nil, Nat.zero_sub] at h8
      have h9 : pyGet lines (-1) = .ok l := by simpa using h8
      unfold pyGet at h9
      simp only [show (-1 : Int) < 0 from by decide, if_true] at h9
      cases hl : lines.length with
      | zero =>
        rw [List.eq_nil_of_length_eq_zero hl] at h9
        cases h9
      | succ k =>
        rw [hl] at h9
        have e : (-1 + ((k + 1 : Nat) : Int)).toNat = k := by omega
        rw [if_neg (by omega), e] at h9
        rw [List.getLast?_eq_getElem?, hl]
        simp only [Nat.add_sub_cancel]
        split at h9
        · next hk => rw [hk]; cases h9; rfl
        · cases h9
    | succ m =>
      right
      refine ⟨m, rfl, ?_⟩
      unfold pyGet at h8
      have e : ((pre.length : Int) - 1 + ((m + 1 - pre.length : Nat) : Int)) = (m : Int) := by omega
      simp only [e] at h8
      rw [if_neg (by omega)] at h8
      rw [if_neg (by omega)] at h8
      simp only [Int.toNat_natCast] at h8
      split at h8
      · next hk => rw [hk]; cases h8; rfl
      · cases h8

theorem zip3Strict_ok {α β γ : Type} (as : List α) (bs : List β) (cs : List γ) (h1 : bs.length = as.length)
    (h2 : cs.length = as.length) : zip3Strict as bs cs = .ok (zip3 as bs cs) := by
  induction as generalizing bs cs with
  | nil =>
    simp only [List.length_nil, List.length_eq_zero_iff] at h1 h2
    subst h1 h2; rfl
  | cons a as ih =>
    cases bs with
    | nil => simp at h1
    | cons b bs =>
      cases cs with
      | nil => simp at h2
      | cons c cs =>
        simp only [List.length_cons, Nat.add_right_cancel_iff] at h1 h2
        simp [zip3Strict, zip3, ih bs cs h1 h2, bind, Except.bind, pure, Except.pure]

theorem zip3_getElem? {α β γ : Type} (as : List α) (bs : List β) (cs : List γ) (n : Nat) :
    (zip3 as bs cs)[n]? = match as[n]?, bs[n]?, cs[n]? with
      | some a, some b, some c => some (a, b, c)
      | _, _, _ => none := by
  induction as generalizing bs cs n with
  | nil => simp [zip3]
  | cons a as ih =>
    cases bs with
    | nil => cases n <;> simp [zip3]
    | cons b bs =>
      cases cs with
      | nil => cases n <;> simp [zip3]
      | cons c cs =>
        cases n with
        | zero => simp [zip3]
        | succ n => simpa [zip3] using ih bs cs n

/-- the items of the loop in `determine_hierarchy_changes` -/
def items (lines : List AhbLine) : List (AhbLine × Option PyStr × Option PyStr) :=
  zip3 lines (lookAhead AhbLine.segmentCode lines) (lookAhead AhbLine.valuePoolEntry lines)

theorem items_getElem? (lines : List AhbLine) (n : Nat) :
    (items lines)[n]? = (lines[n]?).map fun l => (l, nextSegmentAt lines n, nextQualifierAt lines n) := by
  unfold items
  rw [zip3_getElem?]
  by_cases h : n < lines.length
  · simp [lookAhead_getElem? _ lines n h, h, nextSegmentAt, nextQualifierAt]
  · simp [List.getElem?_eq_none (Nat.le_of_not_lt h)]

theorem items_length (lines : List AhbLine) : (items lines).length = lines.length := by
  apply Nat.le_antisymm
  · apply Nat.le_of_not_lt
    intro h
    have h1 := items_getElem? lines lines.length
    rw [List.getElem?_eq_getElem h] at h1
    simp at h1
  · apply Nat.le_of_not_lt
    intro h
    have h1 := items_getElem? lines (items lines).length
    rw [List.getElem?_eq_getElem h] at h1
    simp at h1

theorem changes_eq (lines : List AhbLine) (sgh : Sgh) :
    determineHierarchyChanges lines sgh = .ok (changesLoop sgh ChangeState.init (items lines)) := by
  obtain ⟨r1, h1, h1'⟩ := enhance_spec AhbLine.segmentCode lines
  obtain ⟨r2, h2, h2'⟩ := enhance_spec AhbLine.valuePoolEntry lines
  have hz := zip3Strict_ok lines (lookAhead AhbLine.segmentCode lines) (lookAhead AhbLine.valuePoolEntry lines)
    (lookAhead_length _ _) (lookAhead_length _ _)
  simp only [determineHierarchyChanges, enhanceWithNextSegment, enhanceWithNextValuePoolEntry, h1, h2, bind,
    Except.bind, h1', h2', hz, pure, Except.pure]
  rfl

/-- state of the loop before item `n` -/
def chState (sgh : Sgh) (st : ChangeState) (xs : List (AhbLine × Option PyStr × Option PyStr)) (n : Nat) :
    ChangeState :=
  (xs.take n).foldl (fun s x => (changeStep sgh s x.1 x.2.1 x.2.2).1) st

theorem chState_succ (sgh st xs n x) (h : xs[n]? = some x) :
    chState sgh st xs (n + 1) = (changeStep sgh (chState sgh st xs n) x.1 x.2.1 x.2.2).1 := by
  simp [chState, List.take_add_one, h]

theorem changesLoop_getElem? (sgh st xs n) :
    (changesLoop sgh st xs)[n]? =
      (xs[n]?).map fun x => (x.1, (changeStep sgh (chState sgh st xs n) x.1 x.2.1 x.2.2).2) := by
  induction xs generalizing st n with
  | nil => simp [changesLoop]
  | cons x xs ih =>
    obtain ⟨line, seg, qual⟩ := x
    cases n with
    | zero => simp [changesLoop, chState]
    | succ n => simp [changesLoop, ih, chState]

theorem changesLoop_length (sgh st xs) : (changesLoop sgh st xs).length = xs.length := by
  induction xs generalizing st with
  | nil => rfl
  | cons x xs ih => simp [changesLoop, ih]

theorem changesLoop_map_fst (sgh st xs) : (changesLoop sgh st xs).map Prod.fst = xs.map Prod.fst := by
  induction xs generalizing st with
  | nil => rfl
  | cons x xs ih => simp [changesLoop, ih]

theorem items_map_fst (lines : List AhbLine) : (items lines).map Prod.fst = lines := by
  apply List.ext_getElem?
  intro n
  rw [List.getElem?_map, items_getElem?]
  cases lines[n]? <;> simp

/-- state of `determine_hierarchy_changes` before line `n` -/
def chAt (sgh : Sgh) (lines : List AhbLine) (n : Nat) : ChangeState := chState sgh ChangeState.init (items lines) n

theorem chAt_zero (sgh lines) : chAt sgh lines 0 = ChangeState.init := by simp [chAt, chState]

theorem chAt_succ (sgh lines n line) (h : lines[n]? = some line) :
    chAt sgh lines (n + 1) =
      (changeStep sgh (chAt sgh lines n) line (nextSegmentAt lines n) (nextQualifierAt lines n)).1 :=
  chState_succ sgh ChangeState.init (items lines) n (line, nextSegmentAt lines n, nextQualifierAt lines n) (by rw [items_getElem?, h]; rfl)

/-- the change reported for line `n` -/
def changeAt (sgh : Sgh) (lines : List AhbLine) (n : Nat) (line : AhbLine) : Change :=
  (changeStep sgh (chAt sgh lines n) line (nextSegmentAt lines n) (nextQualifierAt lines n)).2

theorem changes_getElem? (sgh : Sgh) (lines : List AhbLine) (n : Nat) :
    (changesLoop sgh ChangeState.init (items lines))[n]? = (lines[n]?).map fun l => (l, changeAt sgh lines n l) := by
  rw [changesLoop_getElem?, items_getElem?]
  cases lines[n]? <;> simp [changeAt, chAt]

theorem chAt_prevKey (sgh : Sgh) (lines : List AhbLine) (n : Nat) (h : n ≤ lines.length) :
    previousSgKey (chAt sgh lines n).previousLine = previousKeyAt lines n := by
  cases n with
  | zero => rw [chAt_zero]; rfl
  | succ n =>
    have hn : lines[n]? = some lines[n] := List.getElem?_eq_getElem (by omega)
    rw [chAt_succ sgh lines n _ hn]
    simp [changeStep, previousKeyAt, previousSgKey, hn]

theorem lastGroupChangeBefore_succ (changes : List (AhbLine × Change)) (n : Nat) :
    lastGroupChangeBefore changes (n + 1) = match changes[n]? with
      | some (_, c) => if c ≠ .stay then some n else lastGroupChangeBefore changes n
      | none => lastGroupChangeBefore changes n := by
  unfold lastGroupChangeBefore
  rw [List.range_succ, List.reverse_append, List.reverse_singleton, List.singleton_append, List.find?_cons]
  cases h : changes[n]? with
  | none => simp
  | some p =>
    obtain ⟨l, c⟩ := p
    by_cases hc : c = .stay <;> simp [hc]

theorem changeStep_seg (sgh st line seg qual) : (changeStep sgh st line seg qual).1.lastOpeningSegment =
    if (changeStep sgh st line seg qual).2 ≠ .stay then seg else st.lastOpeningSegment := by
  simp [changeStep, Change.isSegmentGroupChange]

theorem changeStep_qual (sgh st line seg qual) : (changeStep sgh st line seg qual).1.lastOpeningQualifier =
    if (changeStep sgh st line seg qual).2 ≠ .stay then qual else st.lastOpeningQualifier := by
  simp [changeStep, Change.isSegmentGroupChange]

theorem chAt_opening (sgh : Sgh) (lines : List AhbLine) (n : Nat) (h : n ≤ lines.length) :
    (chAt sgh lines n).lastOpeningSegment =
      openingSegmentBefore (changesLoop sgh ChangeState.init (items lines)) lines n ∧
    (chAt sgh lines n).lastOpeningQualifier =
      openingQualifierBefore (changesLoop sgh ChangeState.init (items lines)) lines n := by
  induction n with
  | zero =>
    rw [chAt_zero]
    simp [lastGroupChangeBefore, ChangeState.init, openingSegmentBefore, openingQualifierBefore]
  | succ n ih =>
    have hn : lines[n]? = some lines[n] := List.getElem?_eq_getElem (by omega)
    obtain ⟨ih1, ih2⟩ := ih (by omega)
    unfold openingSegmentBefore openingQualifierBefore at *
    rw [chAt_succ sgh lines n _ hn, lastGroupChangeBefore_succ, changes_getElem?, hn]
    simp only [Option.map_some]
    have hc : changeAt sgh lines n lines[n] =
      (changeStep sgh (chAt sgh lines n) lines[n] (nextSegmentAt lines n) (nextQualifierAt lines n)).2 := rfl
    rw [changeStep_seg, changeStep_qual, ← hc]
    by_cases hs : changeAt sgh lines n lines[n] = .stay
    · rw [if_neg (by simpa using hs), if_neg (by simpa using hs), if_neg (by simpa using hs)]
      exact ⟨ih1, ih2⟩
    · rw [if_pos hs, if_pos hs, if_pos hs]
      exact ⟨rfl, rfl⟩

theorem chAt_wasNone (sgh : Sgh) (lines : List AhbLine) (n : Nat) (h : n ≤ lines.length) :
    (chAt sgh lines n).segmentCodeWasNone = true ↔
      n = 0 ∨ ∃ m line, n = m + 1 ∧ lines[m]? = some line ∧ line.segmentCode = none := by
  cases n with
  | zero => rw [chAt_zero]; simp [ChangeState.init]
  | succ n =>
    have hn : lines[n]? = some lines[n] := List.getElem?_eq_getElem (by omega)
    rw [chAt_succ sgh lines n _ hn]
    simp only [changeStep]
    cases hc : (lines[n]).segmentCode with
    | none =>
      simp only [Option.isNone_none, if_true, Option.isSome_none, Bool.false_eq_true, if_false, true_iff]
      exact Or.inr ⟨n, lines[n], rfl, hn, hc⟩
    | some c =>
      simp only [Option.isSome_some, if_true, Bool.false_eq_true, false_iff, Nat.add_eq_zero_iff, Nat.one_ne_zero,
        and_false, false_or, not_exists, not_and]
      intro m l hm hl
      obtain rfl : m = n := by omega
      rw [hn] at hl
      cases hl
      simp [hc]

/-- the reported change, with all state expressed by line numbers -/
theorem changeAt_cases (sgh : Sgh) (lines : List AhbLine) (n : Nat) (line : AhbLine) :
    changeAt sgh lines n line = determineHierarchyChange line (chAt sgh lines n).previousLine
      (nextSegmentAt lines n) (nextQualifierAt lines n) (chAt sgh lines n).lastOpeningSegment
      (chAt sgh lines n).lastOpeningQualifier
      (if line.segmentCode.isNone then true else (chAt sgh lines n).segmentCodeWasNone) sgh := rfl

theorem changeAt_sound (sgh : Sgh) (lines : List AhbLine) (n : Nat) (line : AhbLine) (h : lines[n]? = some line) :
    (line.segmentGroupKey = previousKeyAt lines n →
      changeAt sgh lines n line = .stay ∨ changeAt sgh lines n line = .moveToNeighbourSameKey) ∧
    (line.segmentGroupKey ≠ previousKeyAt lines n →
      changeAt sgh lines n line = if sgh.sgIsHierarchicallyBelow line.segmentGroupKey (previousKeyAt lines n)
        then .diveIntoSubGroup else .leaveToParentAndDive) := by
  have hlt : n < lines.length := by
    obtain ⟨h', _⟩ := List.getElem?_eq_some_iff.1 h
    exact h'
  rw [changeAt_cases sgh lines n line, ← chAt_prevKey sgh lines n (by omega)]
  generalize (if line.segmentCode.isNone = true then true else (chAt sgh lines n).segmentCodeWasNone) = b
  constructor
  · intro hk
    simp only [determineHierarchyChange]
    rw [if_pos hk]
    split
    · exact Or.inl rfl
    · split
      · exact Or.inl rfl
      · cases b
        · exact Or.inl rfl
        · exact Or.inr rfl
  · intro hk
    simp only [determineHierarchyChange]
    rw [if_neg hk]

end Verif
