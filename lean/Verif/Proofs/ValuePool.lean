import Verif.Spec.ValuePool
import Verif.Proofs.Regex
import Verif.Proofs.Dict
import Verif.Proofs.Matching
/-! value pools: qualifiers, replacement, subset test -/

namespace Verif
open Re

/-! ## acceptable qualifiers -/

theorem not_space_of_range {n : Nat} (hs : (9 ≤ n ∧ n ≤ 13) ∨ (28 ≤ n ∧ n ≤ 32) ∨ n = 133 ∨ n = 160 ∨ n = 5760 ∨
    (8192 ≤ n ∧ n ≤ 8202) ∨ (8232 ≤ n ∧ n ≤ 8233) ∨ n = 8239 ∨ n = 8287 ∨ n = 12288) (r : Nat × Nat) (hr : r ∈ digitRanges) :
    ¬ (r.1 ≤ n ∧ n ≤ r.2) := by
  simp only [digitRanges, List.mem_cons, List.not_mem_nil, or_false] at hr
  rintro ⟨h1, h2⟩
  rcases hr with rfl | rfl | rfl | rfl | rfl | rfl | rfl | rfl | rfl | rfl | rfl | rfl | rfl | rfl | rfl | rfl | rfl | rfl | rfl | rfl | rfl | rfl | rfl | rfl | rfl | rfl | rfl | rfl | rfl | rfl | rfl | rfl | rfl | rfl | rfl | rfl | rfl | rfl | rfl | rfl | rfl | rfl | rfl | rfl | rfl | rfl | rfl | rfl | rfl | rfl | rfl | rfl | rfl | rfl | rfl | rfl | rfl | rfl | rfl | rfl | rfl | rfl <;>
    simp only at h1 h2 <;> omega

theorem isSpace_cases {c : Char} (h : isSpace c = true) : (9 ≤ c.toNat ∧ c.toNat ≤ 13) ∨ (28 ≤ c.toNat ∧ c.toNat ≤ 32) ∨
    c.toNat = 133 ∨ c.toNat = 160 ∨ c.toNat = 5760 ∨ (8192 ≤ c.toNat ∧ c.toNat ≤ 8202) ∨
    (8232 ≤ c.toNat ∧ c.toNat ≤ 8233) ∨ c.toNat = 8239 ∨ c.toNat = 8287 ∨ c.toNat = 12288 := by
  simp only [isSpace, Bool.or_eq_true, Bool.and_eq_true, decide_eq_true_eq, beq_iff_eq] at h
  omega

theorem not_isSpace_of_isDigit {c : Char} (h : isDigit c = true) : isSpace c = false := by
  rw [← Bool.not_eq_true]
  intro hs
  simp only [isDigit, List.any_eq_true, Bool.and_eq_true, decide_eq_true_eq] at h
  obtain ⟨r, hr, h⟩ := h
  exact not_space_of_range (isSpace_cases hs) r hr h

theorem not_isSpace_of_isAZ {c : Char} (h : isAZ c = true) : isSpace c = false := by
  rw [← Bool.not_eq_true]
  intro hs
  have := isSpace_cases hs
  simp only [isAZ, Bool.and_eq_true, decide_eq_true_eq] at h
  omega

theorem simpleQualifierRe_iff (s : PyStr) : (simpleQualifierRe.pyMatch s).isSome = true ↔
    ∃ c rest, s = c :: rest ∧ (isAZ c = true ∨ isDigit c = true) := by
  rw [pyMatch_isSome]
  simp only [simpleQualifierRe, mem_alt, mem_seq, mem_bol, mem_grp, mem_plus_cls]
  constructor
  · rintro ⟨t, ⟨_, ⟨_, rfl⟩, u, ⟨w, s', hne, hw, hall, rfl⟩, rfl⟩ |
      ⟨_, ⟨_, ⟨_, ⟨w, s', hne, hw, hall, rfl⟩, _⟩, rfl⟩, _⟩⟩
    · cases w with
      | nil => exact absurd rfl hne
      | cons c w =>
        simp only [List.all_cons, Bool.and_eq_true, Bool.or_eq_true] at hall
        exact ⟨c, w ++ s', hw, hall.1⟩
    · cases w with
      | nil => exact absurd rfl hne
      | cons c w =>
        simp only [List.all_cons, Bool.and_eq_true] at hall
        exact ⟨c, w ++ s', hw, .inr hall.1⟩
  · rintro ⟨c, rest, rfl, h⟩
    exact ⟨_, .inl ⟨_, ⟨trivial, rfl⟩, _, ⟨[c], rest, by simp, rfl, by simpa using h, rfl⟩, rfl⟩⟩

theorem gabiQualifierRe_hyphen (s : PyStr) : (gabiQualifierRe.pyMatch ('-' :: s)).isSome = true ↔
    ∃ word suffix newline, s = word ++ suffix ++ newline ∧
      (∀ x ∈ word, isAZ x = true ∨ isDigit x = true ∨ x = '-') ∧
      suffix ∈ [[], py!"RLMoT", py!"RLMmT"] ∧ newline ∈ [[], py!"\n"] := by
  rw [pyMatch_isSome]
  simp only [gabiQualifierRe, opt, mem_seq, mem_bol, mem_nla, mem_alt, mem_grp, mem_plus_cls, mem_str, mem_chr, mem_eps,
    mem_eol]
  have hnla : run (str py!"MP-ID") { pos := 0, rest := '-' :: s } = [] := by
    rw [List.eq_nil_iff_forall_not_mem]
    intro t ht
    obtain ⟨s', h, _⟩ := mem_str.1 ht
    simp at h
  constructor
  · rintro ⟨t, u, ⟨_, rfl⟩, v, ⟨_, rfl⟩, a, ha, b, ⟨w, s', hne, hw, hall, rfl⟩, c, hc, heol, rfl⟩
    rcases ha with ⟨_, ⟨_, h, _⟩, _⟩ | rfl
    · simp at h
    · cases w with
      | nil => exact absurd rfl hne
      | cons x w =>
        simp only [List.cons_append, List.cons.injEq] at hw
        obtain ⟨rfl, rfl⟩ := hw
        simp only [List.all_cons, Bool.and_eq_true, List.all_eq_true, Bool.or_eq_true, beq_iff_eq] at hall
        have hword : ∀ x ∈ w, isAZ x = true ∨ isDigit x = true ∨ x = '-' := by
          intro x hx
          have := hall.2 x hx
          tauto
        rcases hc with ⟨_, ⟨_, ⟨s1, h1, rfl⟩, _, ⟨_, hom, rfl⟩, s3, h3, rfl⟩, rfl⟩ | rfl
        · simp only [adv_rest] at h1 h3 heol
          rcases hom with ⟨s2, h2, rfl⟩ | ⟨s2, h2, rfl⟩
          · simp only [adv_rest] at h2 h3
            refine ⟨w, py!"RLMoT", s3, by simp [h1, h2, h3], hword, by simp, by simpa using heol⟩
          · simp only [adv_rest] at h2 h3
            refine ⟨w, py!"RLMmT", s3, by simp [h1, h2, h3], hword, by simp, by simpa using heol⟩
        · simp only [adv_rest] at heol
          exact ⟨w, [], s', by simp, hword, by simp, by simpa using heol⟩
  · rintro ⟨word, suffix, newline, rfl, hword, hsuf, hnl⟩
    have hall : ('-' :: word).all (fun c => isAZ c || isDigit c || c == '-') = true := by
      simp only [List.all_cons, beq_self_eq_true, Bool.or_true, Bool.true_and, List.all_eq_true, Bool.or_eq_true,
        beq_iff_eq]
      intro x hx
      have := hword x hx
      tauto
    have hnl' : newline = [] ∨ newline = ['\n'] := by simpa using hnl
    simp only [List.mem_cons, List.not_mem_nil, or_false] at hsuf
    rcases hsuf with rfl | rfl | rfl
    · exact ⟨_, _, ⟨trivial, rfl⟩, _, ⟨hnla, rfl⟩, _, .inr rfl, _, ⟨'-' :: word, newline, by simp, by simp, hall, rfl⟩,
        _, .inr rfl, by simpa using hnl', rfl⟩
    · exact ⟨_, _, ⟨trivial, rfl⟩, _, ⟨hnla, rfl⟩, _, .inr rfl, _, ⟨'-' :: word, (py!"RLMoT" ++ newline), by simp, by simp, hall, rfl⟩,
        _, 
        .inl ⟨_, ⟨_, ⟨'o' :: 'T' :: newline, by simp, rfl⟩, _, ⟨_, .inl ⟨'T' :: newline, rfl, rfl⟩, rfl⟩, newline, rfl, rfl⟩, rfl⟩,
        by simpa using hnl', rfl⟩
    · exact ⟨_, _, ⟨trivial, rfl⟩, _, ⟨hnla, rfl⟩, _, .inr rfl, _, ⟨'-' :: word, (py!"RLMmT" ++ newline), by simp, by simp, hall, rfl⟩,
        _, 
        .inl ⟨_, ⟨_, ⟨'m' :: 'T' :: newline, by simp, rfl⟩, _, ⟨_, .inr ⟨'T' :: newline, rfl, rfl⟩, rfl⟩, newline, rfl, rfl⟩, rfl⟩,
        by simpa using hnl', rfl⟩

theorem gabi_first {s : PyStr} (h : (gabiQualifierRe.pyMatch s).isSome = true) :
    ∃ c rest, s = c :: rest ∧ (isAZ c = true ∨ isDigit c = true ∨ c = '-') := by
  rw [pyMatch_isSome] at h
  simp only [gabiQualifierRe, opt, mem_seq, mem_bol, mem_nla, mem_alt, mem_grp, mem_plus_cls, mem_str, mem_eps] at h
  obtain ⟨t, u, ⟨_, rfl⟩, v, ⟨_, rfl⟩, a, ha, b, ⟨w, s', hne, hw, hall, rfl⟩, _⟩ := h
  rcases ha with ⟨_, ⟨_, h, _⟩, _⟩ | rfl
  · exact ⟨'G', _, h, .inl (by decide)⟩
  · cases w with
    | nil => exact absurd rfl hne
    | cons x w =>
      simp only [List.all_cons, Bool.and_eq_true, Bool.or_eq_true, beq_iff_eq] at hall
      exact ⟨x, w ++ s', hw, by tauto⟩

theorem isEdifactQualifier_iff (q : PyStr) : isEdifactQualifier (some q) = true ↔ AcceptableQualifier q := by
  unfold isEdifactQualifier AcceptableQualifier
  simp only [Bool.and_eq_true, Bool.or_eq_true, simpleQualifierRe_iff, notBlank_iff, mem_capitals]
  constructor
  · rintro ⟨_, ⟨c, rest, rfl, h⟩ | h⟩
    · exact ⟨c, rest, rfl, by tauto⟩
    · obtain ⟨c, rest, rfl, h1 | h1 | rfl⟩ := gabi_first h
      · exact ⟨c, rest, rfl, .inl h1⟩
      · exact ⟨c, rest, rfl, .inr (.inl h1)⟩
      · exact ⟨_, rest, rfl, .inr (.inr ⟨rfl, (gabiQualifierRe_hyphen rest).1 h⟩)⟩
  · rintro ⟨c, rest, rfl, h | h | ⟨rfl, h⟩⟩
    · exact ⟨⟨c, by simp, not_mem_whiteSpace.2 (not_isSpace_of_isAZ h)⟩, .inl ⟨c, rest, rfl, .inl h⟩⟩
    · exact ⟨⟨c, by simp, not_mem_whiteSpace.2 (not_isSpace_of_isDigit h)⟩, .inl ⟨c, rest, rfl, .inr h⟩⟩
    · exact ⟨⟨'-', by simp, by decide⟩, .inr ((gabiQualifierRe_hyphen rest).2 h)⟩

/-! ## replacing -/

theorem mem_existingEntries {pool : List ValuePoolEntry} {q : PyStr} {i : Nat} : (q, i) ∈ existingEntries pool ↔
    ∃ e, pool[i]? = some e ∧ e.qualifier = q ∧ ∀ (j : Nat) (e' : ValuePoolEntry), i < j → pool[j]? = some e' → e'.qualifier ≠ q := by
  unfold existingEntries
  rw [mem_dictUpdate]
  constructor
  · rintro ⟨a, b, h, hb⟩
    have hlen := congrArg List.length h
    have hget : ∀ j : Nat, (pool[j]?).map (fun e => (e.qualifier, j)) = (a ++ (q, i) :: b)[j]? := by
      intro j
      rw [← h, List.getElem?_map, List.getElem?_zipIdx]
      cases pool[j]? <;> simp
    have hi : i = a.length := by
      have := hget a.length
      simp only [List.getElem?_append_right (Nat.le_refl _), Nat.sub_self, List.getElem?_cons_zero, Option.map_eq_some_iff,
        Prod.mk.injEq] at this
      obtain ⟨_, _, _, h⟩ := this
      exact h.symm
    have h0 := hget i
    rw [hi] at h0
    simp only [List.getElem?_append_right (Nat.le_refl _), Nat.sub_self, List.getElem?_cons_zero, Option.map_eq_some_iff,
        Prod.mk.injEq] at h0
    obtain ⟨e, he, hq, _⟩ := h0
    rw [hi]
    refine ⟨e, he, hq, ?_⟩
    intro j e' hj he' heq
    have hj2 := hget j
    rw [he'] at hj2
    obtain ⟨k, rfl⟩ : ∃ k, j = a.length + 1 + k := ⟨j - a.length - 1, by omega⟩
    rw [List.getElem?_append_right (by omega), show a.length + 1 + k - a.length = k + 1 by omega,
      List.getElem?_cons_succ] at hj2
    exact hb (List.mem_map.2 ⟨_, List.mem_of_getElem? hj2.symm, heq⟩)
  · rintro ⟨e, he, hq, hlast⟩
    refine ⟨(pool.zipIdx.map fun x => (x.1.qualifier, x.2)).take i, (pool.zipIdx.map fun x => (x.1.qualifier, x.2)).drop (i + 1), ?_, ?_⟩
    · have : (pool.zipIdx.map fun x => (x.1.qualifier, x.2))[i]? = some (q, i) := by
        rw [List.getElem?_map, List.getElem?_zipIdx, he]; simp [hq]
      conv => lhs; rw [← List.take_append_drop i (pool.zipIdx.map fun x => (x.1.qualifier, x.2))]
      congr 1
      obtain ⟨h1, h2⟩ := List.getElem?_eq_some_iff.1 this
      rw [List.drop_eq_getElem_cons h1, h2]
    · intro hm
      obtain ⟨⟨q', j'⟩, hx, hq'⟩ := List.mem_map.1 hm
      simp only at hq'
      subst hq'
      obtain ⟨k, hk⟩ := List.mem_iff_getElem?.1 hx
      rw [List.getElem?_drop, List.getElem?_map, List.getElem?_zipIdx] at hk
      simp only [Option.map_eq_some_iff, Prod.mk.injEq, Nat.zero_add] at hk
      obtain ⟨_, ⟨e', he', rfl⟩, h2, _⟩ := hk
      exact hlast _ e' (by omega) he' h2

theorem nodup_existingEntries (pool : List ValuePoolEntry) : ((existingEntries pool).map Prod.snd).Nodup := by
  have h1 : ((existingEntries pool).map Prod.fst).Nodup := nodup_dictUpdate (by simp)
  have h2 : (existingEntries pool).Nodup := List.Nodup.of_map _ h1
  refine List.Nodup.map_on ?_ h2
  rintro ⟨q, i⟩ hx ⟨q', i'⟩ hy hxy
  simp only at hxy
  subst hxy
  obtain ⟨e, he, hq, _⟩ := mem_existingEntries.1 hx
  obtain ⟨e', he', hq', _⟩ := mem_existingEntries.1 hy
  rw [he] at he'
  cases he'
  rw [← hq, ← hq']

/-- the meaning after the replacement -/
def mergedMeaning (merger : Option (PyStr → PyStr → PyStr)) (q : PyStr) (e : ValuePoolEntry) : PyStr :=
  match merger with
  | none => e.meaning
  | some f => f e.meaning q

/-- an entry after the visit of the loop -/
def loopEntry (mapping : PyStr → Option (Option PyStr)) (merger : Option (PyStr → PyStr → PyStr)) (q : PyStr)
    (e : ValuePoolEntry) : ValuePoolEntry :=
  match mapping q with
  | none => e
  | some new => { qualifier := new.getD [], ahbExpression := e.ahbExpression, meaning := mergedMeaning merger q e }

theorem loopEntry_some {mapping : PyStr → Option (Option PyStr)} {merger : Option (PyStr → PyStr → PyStr)} {q : PyStr}
    {new : Option PyStr} (h : mapping q = some new) : loopEntry mapping merger q =
    fun e => { qualifier := new.getD [], ahbExpression := e.ahbExpression, meaning := mergedMeaning merger q e } := by
  funext e; simp [loopEntry, h]

theorem replaceLoop_ok (mapping : PyStr → Option (Option PyStr)) (merger : Option (PyStr → PyStr → PyStr))
    (d : List (PyStr × Nat)) (pool : List ValuePoolEntry) (hnd : (d.map Prod.snd).Nodup)
    (hacc : ∀ p ∈ d, ∀ new, mapping p.1 = some new → isEdifactQualifier new = true) :
    (replaceLoop mapping merger d pool).2 = .ok () ∧
    (replaceLoop mapping merger d pool).1.length = pool.length ∧
    (∀ q i, (q, i) ∈ d → (replaceLoop mapping merger d pool).1[i]? = (pool[i]?).map (loopEntry mapping merger q)) ∧
    (∀ i, i ∉ d.map Prod.snd → (replaceLoop mapping merger d pool).1[i]? = pool[i]?) := by
  induction d generalizing pool with
  | nil => simp [replaceLoop]
  | cons p d ih =>
    obtain ⟨q, i⟩ := p
    simp only [List.map_cons, List.nodup_cons] at hnd
    have hacc' := fun p hp => hacc p (List.mem_cons_of_mem _ hp)
    cases hm : mapping q with
    | none =>
      obtain ⟨h1, h2, h3, h4⟩ := ih pool hnd.2 hacc'
      simp only [replaceLoop, hm]
      refine ⟨h1, h2, ?_, ?_⟩
      · intro q' i' hx
        rcases List.mem_cons.1 hx with heq | hx
        · cases heq
          rw [h4 i hnd.1]
          have : loopEntry mapping merger q = id := by funext e; simp [loopEntry, hm]
          rw [this]; simp
        · exact h3 q' i' hx
      · intro i' hi'
        simp only [List.map_cons, List.mem_cons, not_or] at hi'
        exact h4 i' hi'.2
    | some new =>
      have hq := hacc (q, i) List.mem_cons_self new hm
      simp only [replaceLoop, hm, hq, Bool.not_true, Bool.false_eq_true, if_false]
      obtain ⟨h1, h2, h3, h4⟩ := ih (List.modify (mergeMeaning merger q i pool) i fun e => { e with qualifier := new.getD [] }) hnd.2 hacc'
      have hlook : ∀ j : Nat, (List.modify (mergeMeaning merger q i pool) i fun e => { e with qualifier := new.getD [] })[j]? =
          if i = j then (pool[j]?).map (loopEntry mapping merger q) else pool[j]? := by
        intro j
        by_cases hij : i = j
        · subst hij
          rw [loopEntry_some hm]
          cases merger <;> simp [mergeMeaning, mergedMeaning, Function.comp_def]
        · cases merger <;> simp [mergeMeaning, hij]
      refine ⟨h1, ?_, ?_, ?_⟩
      · rw [h2]; cases merger <;> simp [mergeMeaning]
      · intro q' i' hx
        rcases List.mem_cons.1 hx with heq | hx
        · cases heq
          rw [h4 i hnd.1, hlook]; simp
        · rw [h3 q' i' hx, hlook]
          have : i ≠ i' := by
            rintro rfl
            exact hnd.1 (List.mem_map.2 ⟨_, hx, rfl⟩)
          simp [this]
      · intro i' hi'
        simp only [List.map_cons, List.mem_cons, not_or] at hi'
        rw [h4 i' hi'.2, hlook, if_neg (fun h => hi'.1 h.symm)]

theorem replaceLoop_error (mapping : PyStr → Option (Option PyStr)) (merger : Option (PyStr → PyStr → PyStr))
    (d : List (PyStr × Nat)) (pool : List ValuePoolEntry)
    (h : ∃ p ∈ d, ∃ new, mapping p.1 = some new ∧ isEdifactQualifier new = false) :
    (replaceLoop mapping merger d pool).2 = .error .valueError := by
  induction d generalizing pool with
  | nil => simp at h
  | cons p d ih =>
    obtain ⟨q, i⟩ := p
    obtain ⟨p', hp', new', hm', hq'⟩ := h
    cases hm : mapping q with
    | none =>
      simp only [replaceLoop, hm]
      refine ih pool ?_
      rcases List.mem_cons.1 hp' with rfl | hp'
      · rw [hm] at hm'; cases hm'
      · exact ⟨p', hp', new', hm', hq'⟩
    | some new =>
      simp only [replaceLoop, hm]
      cases hq : isEdifactQualifier new with
      | false => simp
      | true =>
        simp only [Bool.not_true, Bool.false_eq_true, if_false]
        refine ih _ ?_
        rcases List.mem_cons.1 hp' with rfl | hp'
        · rw [hm] at hm'; cases hm'; rw [hq] at hq'; cases hq'
        · exact ⟨p', hp', new', hm', hq'⟩

/-- in any case, order and expressions are kept -/
theorem replaceLoop_expressions (mapping : PyStr → Option (Option PyStr)) (merger : Option (PyStr → PyStr → PyStr))
    (d : List (PyStr × Nat)) (pool : List ValuePoolEntry) :
    (replaceLoop mapping merger d pool).1.map ValuePoolEntry.ahbExpression = pool.map ValuePoolEntry.ahbExpression := by
  have hmod : ∀ (f : ValuePoolEntry → ValuePoolEntry), (∀ e, (f e).ahbExpression = e.ahbExpression) →
      ∀ (i : Nat) (l : List ValuePoolEntry), (l.modify i f).map ValuePoolEntry.ahbExpression = l.map ValuePoolEntry.ahbExpression := by
    intro f hf i l
    apply List.ext_getElem?
    intro j
    rw [List.getElem?_map, List.getElem?_map, List.getElem?_modify]
    split
    · cases l[j]? <;> simp [hf]
    · simp
  induction d generalizing pool with
  | nil => rfl
  | cons p d ih =>
    obtain ⟨q, i⟩ := p
    cases hm : mapping q with
    | none => simp only [replaceLoop, hm]; exact ih pool
    | some new =>
      simp only [replaceLoop, hm]
      split
      · cases merger with
        | none => rfl
        | some f => exact hmod (fun e => { e with meaning := f e.meaning q }) (fun e => rfl) _ _
      · rw [ih, hmod (fun e => { e with qualifier := new.getD [] }) (fun e => rfl)]
        cases merger with
        | none => rfl
        | some f => exact hmod (fun e => { e with meaning := f e.meaning q }) (fun e => rfl) _ _

/-! ## subset test -/

theorem allIn_container (pool : List ValuePoolEntry) (items : List PyStr) :
    allIn pool (.container items) = true ↔ ∀ e ∈ pool, e.qualifier ∈ items := by
  induction pool with
  | nil => simp [allIn]
  | cons e pool ih =>
    simp only [allIn, PyIterable.search, decide_eq_true_eq]
    split
    · next h => simp [ih, h]
    · next h => simp [h]

theorem search_iterator_here (q : PyStr) (items : List PyStr) :
    PyIterable.search q (.iterator (q :: items)) = (true, .iterator items) := by
  simp [PyIterable.search]

theorem search_iterator_skip {q x : PyStr} (items : List PyStr) (h : x ≠ q) :
    PyIterable.search q (.iterator (x :: items)) = PyIterable.search q (.iterator items) := by
  simp [PyIterable.search, h]

theorem allIn_iterator (pool : List ValuePoolEntry) (items : List PyStr) :
    allIn pool (.iterator items) = true ↔ (pool.map ValuePoolEntry.qualifier).Sublist items := by
  induction pool generalizing items with
  | nil => simp [allIn]
  | cons e pool ih =>
    induction items with
    | nil => simp [allIn, PyIterable.search]
    | cons x items ih2 =>
      by_cases hx : x = e.qualifier
      · subst hx
        simp only [allIn, search_iterator_here, if_true, ih, List.map_cons, List.cons_sublist_cons]
      · simp only [allIn, search_iterator_skip items hx] at ih2 ⊢
        rw [ih2, List.map_cons, List.sublist_cons_iff]
        constructor
        · exact .inl
        · rintro (h | ⟨r, h, _⟩)
          · exact h
          · exact absurd (List.cons.inj h).1.symm hx

end Verif
