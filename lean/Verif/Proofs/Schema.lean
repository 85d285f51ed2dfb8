import Verif.Spec.Schema
import Verif.Proofs.DeepOps
import Verif.Proofs.Sgh
import Mathlib.Data.List.Induction
/-!
# Lemmas about the schemas
-/

namespace Verif

/-! ## UUIDs -/

theorem hexDigits_length (k n : Nat) : (hexDigits k n).length = k := by
  induction k generalizing n with
  | zero => rfl
  | succ k ih => simp [hexDigits, ih]

theorem hexVal_hexChar (n : Nat) (h : n < 16) : hexVal (hexChar n) = some n := by
  have : ∀ n : Fin 16, hexVal (hexChar n.val) = some n.val := by decide
  exact this ⟨n, h⟩

theorem parseHex_append (s t : PyStr) (a : Nat) (h : parseHex s = some a) :
    parseHex (s ++ t) = t.foldl (fun acc c => acc.bind fun n => (hexVal c).map fun v => 16 * n + v) (some a) := by
  unfold parseHex at *
  rw [List.foldl_append, h]

theorem parseHex_hexDigits (k n : Nat) (h : n < 16 ^ k) : parseHex (hexDigits k n) = some n := by
  induction k generalizing n with
  | zero =>
    have : n = 0 := by simpa using h
    subst this; rfl
  | succ k ih =>
    have h1 : n / 16 < 16 ^ k := by
      rw [Nat.div_lt_iff_lt_mul (by decide)]
      rw [Nat.pow_succ] at h
      exact h
    rw [hexDigits, parseHex_append _ _ _ (ih _ h1)]
    simp only [List.foldl_cons, List.foldl_nil, Option.bind_some, hexVal_hexChar _ (Nat.mod_lt n (by decide)),
      Option.map_some]
    congr 1
    omega

theorem hexVal_facts (c : Char) (h : (hexVal c).isSome) :
    isIntSpace c = false ∧ c ≠ '+' ∧ c ≠ '_' ∧ c ≠ 'x' ∧ c ≠ 'X' ∧ hexDigitVal c = hexVal c := by
  have hn : c.toNat < 128 := by
    unfold hexVal at h
    simp only at h
    split at h
    · omega
    · split at h
      · omega
      · split at h
        · omega
        · simp at h
  have hc : c = Char.ofNat c.toNat := (Char.ofNat_toNat c).symm
  have : ∀ n : Fin 128, (hexVal (Char.ofNat n.val)).isSome → isIntSpace (Char.ofNat n.val) = false ∧ Char.ofNat n.val ≠ '+' ∧
      Char.ofNat n.val ≠ '_' ∧ Char.ofNat n.val ≠ 'x' ∧ Char.ofNat n.val ≠ 'X' ∧
      hexDigitVal (Char.ofNat n.val) = hexVal (Char.ofNat n.val) := by decide +kernel
  rw [hc] at h ⊢
  exact this ⟨c.toNat, hn⟩ h

theorem dropWhile_none {α : Type} (p : α → Bool) (l : List α) (h : ∀ c ∈ l, p c = false) : l.dropWhile p = l := by
  cases l with
  | nil => rfl
  | cons a l => rw [List.dropWhile_cons_of_neg]; simp [h a (by simp)]

theorem splitChar_none (c : Char) (s : PyStr) (h : c ∉ s) : splitChar c s = [s] := by
  induction s with
  | nil => rfl
  | cons x s ih =>
    simp only [List.mem_cons, not_or] at h
    rw [splitChar, if_neg (Ne.symm h.1), ih h.2]

theorem pyIntHex_plain (s : PyStr) (h : ∀ c ∈ s, (hexVal c).isSome) (hne : s ≠ []) : pyIntHex s = parseHex s := by
  unfold pyIntHex
  have h1 : ((s.dropWhile isIntSpace).reverse.dropWhile isIntSpace).reverse = s := by
    rw [dropWhile_none isIntSpace s fun c hc => (hexVal_facts c (h c hc)).1, dropWhile_none, List.reverse_reverse]
    intro c hc
    exact (hexVal_facts c (h c (List.mem_reverse.1 hc))).1
  have h2 : dropPlus s = s := by
    unfold dropPlus
    split
    · exact absurd rfl (hexVal_facts '+' (h '+' (by simp))).2.1
    · rfl
  have h3 : dropHexPrefix s = s := by
    unfold dropHexPrefix
    split
    · next z x t =>
      have hx := (hexVal_facts x (h x (by simp))).2.2.2
      rw [if_neg]
      simp [hx.1, hx.2.1]
    · rfl
  have h4 : splitChar '_' s = [s] := splitChar_none _ _ fun hm => (hexVal_facts '_' (h _ hm)).2.2.1 rfl
  have h5 : s.all (fun c => (hexDigitVal c).isSome) = true := by
    rw [List.all_eq_true]
    intro c hc
    rw [(hexVal_facts c (h c hc)).2.2.2.2.2]
    exact h c hc
  have h6 : ∀ (t : PyStr) (a : Nat), (∀ c ∈ t, (hexVal c).isSome) →
      some (t.foldl (fun n c => 16 * n + (hexDigitVal c).getD 0) a) =
        t.foldl (fun acc c => acc.bind fun n => (hexVal c).map fun v => 16 * n + v) (some a) := by
    intro t
    induction t with
    | nil => intro a _; rfl
    | cons c t ih =>
      intro a ht
      obtain ⟨v, hv⟩ := Option.isSome_iff_exists.1 (ht c (by simp))
      rw [List.foldl_cons, List.foldl_cons, ih _ (fun c hc => ht c (by simp [hc])), (hexVal_facts c (ht c (by simp))).2.2.2.2.2, hv]
      rfl
  rw [h1]
  dsimp only
  rw [h2, h3, h4]
  simp only [List.all_cons, List.all_nil, Bool.and_true, h5, List.isEmpty_eq_false_iff.2 hne, Bool.not_false, if_true, List.flatten_cons,
    List.flatten_nil, List.append_nil]
  rw [h6 s 0 h]
  rfl

theorem splitChar_length (c : Char) (s : PyStr) : (splitChar c s).flatten.length ≤ s.length := by
  induction s with
  | nil => simp [splitChar]
  | cons x s ih =>
    rw [splitChar]
    split
    · simp only [List.flatten_cons, List.nil_append, List.length_cons]; omega
    · split
      · next h => simp
      · next w ws h =>
        rw [h] at ih
        simp only [List.flatten_cons, List.length_append, List.length_cons, List.cons_append] at ih ⊢
        omega

theorem hexDigitVal_lt (c : Char) (v : Nat) (h : hexDigitVal c = some v) : v < 16 := by
  unfold hexDigitVal at h
  split at h
  · cases h
    unfold digitVal
    split
    · exact Nat.lt_of_lt_of_le (Nat.mod_lt _ (by decide)) (by decide)
    · decide
  · unfold hexVal at h
    simp only at h
    split at h
    · simp only [Option.some.injEq] at h; omega
    · split at h
      · simp only [Option.some.injEq] at h; omega
      · split at h
        · simp only [Option.some.injEq] at h; omega
        · simp at h

theorem foldHex_lt (t : PyStr) : ∀ a k : Nat, a < 16 ^ k →
    t.foldl (fun n c => 16 * n + (hexDigitVal c).getD 0) a < 16 ^ (k + t.length) := by
  induction t with
  | nil => intro a k h; simpa using h
  | cons c t ih =>
    intro a k h
    rw [List.foldl_cons, List.length_cons, Nat.add_comm t.length 1, ← Nat.add_assoc]
    refine ih _ _ ?_
    have hv : (hexDigitVal c).getD 0 < 16 := by
      cases hv : hexDigitVal c with
      | none => decide
      | some v => exact hexDigitVal_lt c v hv
    rw [Nat.pow_succ]
    omega

theorem dropHexPrefix_length (s : PyStr) : (dropHexPrefix s).length ≤ s.length := by
  unfold dropHexPrefix
  split
  · split
    · split <;> simp only [List.length_cons] <;> omega
    · simp
  · simp

theorem pyIntHex_lt (s : PyStr) (n : Nat) (h : pyIntHex s = some n) : n < 16 ^ s.length := by
  unfold pyIntHex at h
  dsimp only at h
  split at h
  · cases h
    have h1 := foldHex_lt (splitChar '_' (dropHexPrefix (dropPlus
      ((s.dropWhile isIntSpace).reverse.dropWhile isIntSpace).reverse))).flatten 0 0 (by decide)
    refine Nat.lt_of_lt_of_le h1 (Nat.pow_le_pow_right (by decide) ?_)
    rw [Nat.zero_add]
    refine Nat.le_trans (splitChar_length _ _) (Nat.le_trans (dropHexPrefix_length _) ?_)
    have h2 : ((s.dropWhile isIntSpace).reverse.dropWhile isIntSpace).reverse.length ≤ s.length := by
      rw [List.length_reverse]
      refine Nat.le_trans (List.dropWhile_suffix _).length_le ?_
      rw [List.length_reverse]
      exact (List.dropWhile_suffix _).length_le
    refine Nat.le_trans ?_ h2
    unfold dropPlus
    split
    · next hu => rw [hu]; simp
    · exact Nat.le_refl _
  · cases h

/-- the characters of a dumped UUID -/
def IsHexChar (c : Char) : Prop := ∃ n, n < 16 ∧ c = hexChar n

theorem mem_hexDigits (k n : Nat) : ∀ c ∈ hexDigits k n, IsHexChar c := by
  induction k generalizing n with
  | zero => simp [hexDigits]
  | succ k ih =>
    intro c hc
    rw [hexDigits, List.mem_append, List.mem_singleton] at hc
    rcases hc with hc | rfl
    · exact ih _ _ hc
    · exact ⟨n % 16, Nat.mod_lt _ (by decide), rfl⟩

theorem hexChar_ne (c : Char) (h : IsHexChar c) : c ≠ '-' ∧ c ≠ '{' ∧ c ≠ '}' ∧ c ≠ 'u' := by
  obtain ⟨n, hn, rfl⟩ := h
  have : ∀ n : Fin 16, hexChar n.val ≠ '-' ∧ hexChar n.val ≠ '{' ∧ hexChar n.val ≠ '}' ∧ hexChar n.val ≠ 'u' := by decide
  exact this ⟨n, hn⟩

theorem replaceStr_id (c : Char) (old new s : PyStr) (h : ∀ x ∈ s, x ≠ c) : replaceStr (c :: old) new s = s := by
  unfold replaceStr
  induction s with
  | nil => rfl
  | cons x s ih =>
    rw [replaceStrAux, if_neg, ih (fun y hy => h y (by simp [hy]))]
    have := h x (by simp)
    simp [List.isPrefixOf, Ne.symm this]

theorem dropWhile_id {α : Type} (p : α → Bool) (l : List α) (h : ∀ x ∈ l, p x = false) : l.dropWhile p = l := by
  cases l with
  | nil => rfl
  | cons x l => simp [h x (by simp)]

theorem stripBraces_id (s : PyStr) (h : ∀ x ∈ s, x ≠ '{' ∧ x ≠ '}') : stripBraces s = s := by
  unfold stripBraces
  rw [dropWhile_id _ s, dropWhile_id, List.reverse_reverse]
  · intro x hx; simp [h x (List.mem_reverse.1 hx)]
  · intro x hx; simp [h x hx]

theorem replaceChar_hyphen_id (s : PyStr) (h : ∀ x ∈ s, x ≠ '-') : replaceChar '-' [] s = s := by
  unfold replaceChar
  induction s with
  | nil => rfl
  | cons x s ih =>
    rw [List.flatMap_cons, if_neg (h x (by simp)), ih (fun y hy => h y (by simp [hy]))]; rfl

theorem replaceChar_append (c : Char) (new s t : PyStr) :
    replaceChar c new (s ++ t) = replaceChar c new s ++ replaceChar c new t := by
  simp [replaceChar]

theorem uuid_parts (h : PyStr) : h.take 8 ++ (h.drop 8).take 4 ++ (h.drop 12).take 4 ++ (h.drop 16).take 4 ++ h.drop 20 = h := by
  have e1 : h.drop 16 = (h.drop 16).take 4 ++ h.drop 20 := by
    conv => lhs; rw [← List.take_append_drop 4 (h.drop 16), List.drop_drop]
  have e2 : h.drop 12 = (h.drop 12).take 4 ++ h.drop 16 := by
    conv => lhs; rw [← List.take_append_drop 4 (h.drop 12), List.drop_drop]
  have e3 : h.drop 8 = (h.drop 8).take 4 ++ h.drop 12 := by
    conv => lhs; rw [← List.take_append_drop 4 (h.drop 8), List.drop_drop]
  simp only [List.append_assoc]
  rw [← e1, ← e2, ← e3, List.take_append_drop]

theorem parseUuid_uuidToStr (n : Nat) (h : n < 2 ^ 128) : parseUuid (uuidToStr n) = some n := by
  have hmem : ∀ c ∈ uuidToStr n, IsHexChar c ∨ c = '-' := by
    intro c hc
    have hd : ∀ c ∈ hexDigits 32 n, IsHexChar c := mem_hexDigits 32 n
    simp only [uuidToStr, List.mem_append, List.mem_singleton] at hc
    rcases hc with (((((((hc | hc) | hc) | hc) | hc) | hc) | hc) | hc) | hc
    · exact .inl (hd _ (List.mem_of_mem_take hc))
    · exact .inr hc
    · exact .inl (hd _ (List.mem_of_mem_drop (List.mem_of_mem_take hc)))
    · exact .inr hc
    · exact .inl (hd _ (List.mem_of_mem_drop (List.mem_of_mem_take hc)))
    · exact .inr hc
    · exact .inl (hd _ (List.mem_of_mem_drop (List.mem_of_mem_take hc)))
    · exact .inr hc
    · exact .inl (hd _ (List.mem_of_mem_drop hc))
  have hu : ∀ c ∈ uuidToStr n, c ≠ 'u' := by
    intro c hc
    rcases hmem c hc with h | h
    · exact (hexChar_ne c h).2.2.2
    · rw [h]; decide
  have hb : ∀ c ∈ uuidToStr n, c ≠ '{' ∧ c ≠ '}' := by
    intro c hc
    rcases hmem c hc with h | h
    · exact ⟨(hexChar_ne c h).2.1, (hexChar_ne c h).2.2.1⟩
    · rw [h]; decide
  have hrep : replaceChar '-' [] (uuidToStr n) = hexDigits 32 n := by
    have hid : ∀ s : PyStr, (∀ c ∈ s, c ∈ hexDigits 32 n) → replaceChar '-' [] s = s :=
      fun s hs => replaceChar_hyphen_id s fun c hc => (hexChar_ne c (mem_hexDigits 32 n c (hs c hc))).1
    have hm : replaceChar '-' [] py!"-" = [] := by decide
    simp only [uuidToStr, replaceChar_append, hm, List.append_nil]
    rw [hid _ (fun c hc => List.mem_of_mem_take hc), hid _ (fun c hc => List.mem_of_mem_drop (List.mem_of_mem_take hc)),
      hid _ (fun c hc => List.mem_of_mem_drop (List.mem_of_mem_take hc)),
      hid _ (fun c hc => List.mem_of_mem_drop (List.mem_of_mem_take hc)), hid _ (fun c hc => List.mem_of_mem_drop hc)]
    exact uuid_parts _
  unfold parseUuid
  simp only
  rw [show (py!"urn:" : PyStr) = 'u' :: py!"rn:" from rfl, show (py!"uuid:" : PyStr) = 'u' :: py!"uid:" from rfl,
    replaceStr_id _ _ _ _ hu, replaceStr_id _ _ _ _ hu, stripBraces_id _ hb, hrep, if_neg (by rw [hexDigits_length]; decide)]
  rw [pyIntHex_plain _ (fun c hc => by
    obtain ⟨k, hk, rfl⟩ := mem_hexDigits 32 n c hc
    rw [hexVal_hexChar k hk]; rfl) (fun h0 => by have := hexDigits_length 32 n; rw [h0] at this; simp at this)]
  exact parseHex_hexDigits 32 n (by simpa using h)

/-! ## fields -/

theorem loadField_ne_missing {α : Type} (o : FieldOpts) (conv : Json → Option α) (key : PyStr) (d : List (PyStr × Json)) :
    (dictGet key d).isSome → (loadField o conv key d).isMissing = false := by
  unfold loadField
  intro h
  cases hd : dictGet key d with
  | none => simp [hd] at h
  | some j => cases j <;> simp only <;> (try split) <;> rfl

theorem loadItems_map {α : Type} (load : Json → PyRes α) (dump : α → Json) (c : α → Bool) (r : α → α) (l : List α)
    (h : ∀ x ∈ l, load (dump x) = if c x then .ok (r x) else .error .validationError) :
    loadItems load (l.map dump) = .ok (if l.all c then some (l.map r) else none) := by
  induction l with
  | nil => rfl
  | cons x l ih =>
    rw [List.map_cons, loadItems, ih (fun y hy => h y (by simp [hy])), h x (by simp)]
    cases hc : c x <;> cases hl : l.all c <;> simp [collect, hc, hl, Bind.bind, Except.bind, pure, Except.pure]

theorem strField_dump (o : FieldOpts) (key : PyStr) (d : List (PyStr × Json)) (x : Option PyStr)
    (h : dictGet key d = some (dumpStr x)) (ho : (o.allowNone || o.defaultNone) = true) : strField o key d = .value x := by
  unfold strField loadField
  rw [h]
  cases x with
  | none => simp [dumpStr, ho]
  | some s => simp [dumpStr, convStr]

theorem strField_str (o : FieldOpts) (key : PyStr) (d : List (PyStr × Json)) (x : PyStr)
    (h : dictGet key d = some (.str x)) : strField o key d = .value (some x) := by
  unfold strField loadField
  rw [h]
  simp [convStr]

theorem strField_strict (o : FieldOpts) (key : PyStr) (d : List (PyStr × Json)) (x : Option PyStr)
    (h : dictGet key d = some (dumpStr x)) (ho : (o.allowNone || o.defaultNone) = false) :
    strField o key d = if x.isSome then .value x else .invalid := by
  unfold strField loadField
  rw [h]
  cases x with
  | none => simp [dumpStr, ho]
  | some s => simp [dumpStr, convStr]

theorem loadListField_arr {α : Type} (o : FieldOpts) (load : Json → PyRes α) (key : PyStr) (d : List (PyStr × Json))
    (dump : α → Json) (c : α → Bool) (r : α → α) (l : List α) (hd : dictGet key d = some (.arr (l.map dump)))
    (h : ∀ x ∈ l, load (dump x) = if c x then .ok (r x) else .error .validationError) :
    loadListField o load key d = .ok (if l.all c then .value (some (l.map r)) else .invalid) := by
  unfold loadListField
  rw [hd]
  simp only
  rw [loadItems_map load dump c r l h]
  cases l.all c <;> rfl

/-! ## flat AHBs -/

theorem AhbLine.load_dump (l : AhbLine) (h : l.Constructed) : AhbLine.load l.dump = .ok l := by
  obtain ⟨hnew, hguid⟩ := h
  have hg : ∀ d, dictGet py!"guid" d = some (match l.guid with
          | none => .null
          | some g => .str (uuidToStr g)) →
      loadField { defaultNone := true } convUuid py!"guid" d = .value l.guid := by
    intro d hd
    unfold loadField
    rw [hd]
    cases hgu : l.guid with
    | none => simp
    | some g => simp [convUuid, parseUuid_uuidToStr g (hguid g hgu)]
  have hi : ∀ d, dictGet py!"index" d = some (match l.index with
          | none => .null
          | some i => .num i) →
      loadField { defaultNone := true } convInt py!"index" d = .value l.index := by
    intro d hd
    unfold loadField
    rw [hd]
    cases hgu : l.index with
    | none => simp
    | some g => simp [convInt]
  unfold AhbLine.dump AhbLine.load
  simp only
  rw [hg _ rfl, strField_dump _ py!"segment_group_key" _ l.segmentGroupKey rfl rfl, strField_dump _ py!"segment_code" _ l.segmentCode rfl rfl,
    strField_dump _ py!"segment_id" _ l.segmentId rfl rfl, strField_dump _ py!"data_element" _ l.dataElement rfl rfl,
    strField_dump _ py!"value_pool_entry" _ l.valuePoolEntry rfl rfl, strField_dump _ py!"name" _ l.name rfl rfl,
    strField_dump _ py!"ahb_expression" _ l.ahbExpression rfl rfl, strField_dump _ py!"conditions" _ l.conditions rfl rfl,
    strField_dump _ py!"section_name" _ l.sectionName rfl rfl, hi _ rfl]
  rw [if_neg]
  · exact hnew
  · simp only [Loaded.isInvalid, Bool.or_false, Bool.not_eq_true]
    rfl

theorem AhbMetaInformation.load_dump (m : AhbMetaInformation) (h : AhbMetaInformation.new m = .ok m) :
    AhbMetaInformation.load m.dump = .ok m := by
  unfold AhbMetaInformation.dump AhbMetaInformation.load
  simp only
  rw [strField_str _ _ _ m.pruefidentifikator rfl, strField_dump _ py!"maus_version" _ m.mausVersion rfl rfl,
    strField_dump _ py!"description" _ m.description rfl rfl, strField_dump _ py!"direction" _ m.direction rfl rfl, if_neg]
  · exact h
  · simp only [Loaded.isInvalid, Bool.or_false, Bool.not_eq_true]
    rfl

theorem loadHandbook_dump {α β : Type} (load : Json → PyRes α) (make : AhbMetaInformation → List α → PyRes β)
    (dump : α → Json) (c : α → Bool) (r : α → α) (m : AhbMetaInformation) (l : List α)
    (hm : AhbMetaInformation.new m = .ok m)
    (h : ∀ x ∈ l, load (dump x) = if c x then .ok (r x) else .error .validationError) :
    loadHandbook load make (.obj [(py!"meta", m.dump), (py!"lines", .arr (l.map dump))]) =
      if l.all c then make m (l.map r) else .error .validationError := by
  have h1 : loadNestedField AhbMetaInformation.load py!"meta" [(py!"meta", m.dump), (py!"lines", .arr (l.map dump))] =
      .ok (.value m) := by
    have hd : dictGet py!"meta" [(py!"meta", m.dump), (py!"lines", .arr (l.map dump))] = some m.dump := rfl
    have hl := AhbMetaInformation.load_dump m hm
    unfold loadNestedField
    rw [hd]
    unfold AhbMetaInformation.dump at hl ⊢
    simp only
    rw [hl]
  unfold loadHandbook
  simp only
  rw [h1, loadListField_arr {} load py!"lines" _ dump c r l rfl h]
  have hu : hasUnknown [py!"meta", py!"lines"] [(py!"meta", m.dump), (py!"lines", .arr (l.map dump))] = false := rfl
  rw [hu]
  cases l.all c <;> simp [Bind.bind, Except.bind, Loaded.isInvalid]

/-! ## data elements -/

theorem ValuePoolEntry.load_dump (e : ValuePoolEntry) (h : e.Constructed) : ValuePoolEntry.load e.dump = .ok e := by
  unfold ValuePoolEntry.dump ValuePoolEntry.load
  simp only
  rw [strField_str _ py!"qualifier" _ e.qualifier rfl, strField_str _ py!"meaning" _ e.meaning rfl,
    strField_str _ py!"ahb_expression" _ e.ahbExpression rfl, if_neg]
  · exact h
  · simp only [Loaded.isInvalid, Bool.or_false, Bool.not_eq_true]
    rfl

theorem loadType_dump (d : List (PyStr × Json)) (t : Option DataElementDataType)
    (h : dictGet py!"value_type" d = some (dumpDataType t)) :
    loadField {} convDataType py!"value_type" d = if t.isSome then .value (some (.type t)) else .invalid := by
  unfold loadField
  rw [h]
  cases t with
  | none => rfl
  | some t => cases t <;> rfl

theorem DataElement.withType_type (t : Option DataElementDataType) (disc id : Option PyStr)
    (f : Option DataElementDataType → PyRes DataElement) : DataElement.withType (some (.type t)) disc id f = f t := rfl

theorem DataElement.withType_ok {arg : Option TypeArg} {disc id : Option PyStr} {f : Option DataElementDataType → PyRes DataElement}
    {de : DataElement} (h : DataElement.withType arg disc id f = .ok de) : ∃ t, arg = some (.type t) ∧ f t = .ok de := by
  unfold DataElement.withType at h
  split at h
  · next t => exact ⟨t, rfl, h⟩
  · cases hb : DataElement.checkBase disc id <;> simp [hb, Bind.bind, Except.bind] at h

theorem DataElement.load_dump (de : DataElement) (h : de.Constructed) :
    DataElement.load de.dump = if de.valueType.isSome then .ok de else .error .validationError := by
  obtain ⟨disc, id, inp, ty, kind⟩ := de
  unfold DataElement.Constructed at h
  cases kind with
  | freeText x =>
    simp only at h
    have hin : ∀ d, (dictGet py!"entered_input" d = some (dumpStr inp) ∨ inp = none ∧ dictGet py!"entered_input" d = none) →
        strField { defaultNone := true } py!"entered_input" d = .value inp := by
      intro d hd
      rcases hd with hd | ⟨rfl, hd⟩
      · exact strField_dump _ _ _ _ hd rfl
      · unfold strField loadField; rw [hd]; rfl
    have key : DataElement.load (DataElement.dump ⟨disc, id, inp, ty, .freeText x⟩) =
        DataElement.loadFreeText (DataElement.dump ⟨disc, id, inp, ty, .freeText x⟩) := by
      cases inp <;> rfl
    rw [key]
    unfold DataElement.dump DataElement.dumpBase DataElement.loadFreeText
    simp only
    rw [strField_dump _ py!"discriminator" _ disc (by cases inp <;> rfl) rfl,
      strField_str _ py!"data_element_id" _ id (by cases inp <;> rfl),
      hin _ (by cases inp; exact .inr ⟨rfl, rfl⟩; exact .inl rfl),
      loadType_dump _ ty (by cases inp <;> rfl),
      strField_str _ py!"ahb_expression" _ x (by cases inp <;> rfl)]
    have hu : ∀ j, hasUnknown (dataElementKeys ++ [py!"ahb_expression"])
      (([(py!"discriminator", dumpStr disc), (py!"data_element_id", Json.str id)] ++
        dumpInput inp ++ [(py!"value_type", j)]) ++ [(py!"ahb_expression", Json.str x)]) = false := by
      intro j; cases inp <;> rfl
    rw [hu]
    cases ty with
    | none => simp [Loaded.isInvalid]
    | some t => simpa [Loaded.isInvalid, Loaded.isMissing, Loaded.getD, DataElement.withType_type] using h
  | valuePool p =>
    simp only at h
    obtain ⟨h, hp⟩ := h
    have hin : ∀ d, (dictGet py!"entered_input" d = some (dumpStr inp) ∨ inp = none ∧ dictGet py!"entered_input" d = none) →
        strField { defaultNone := true } py!"entered_input" d = .value inp := by
      intro d hd
      rcases hd with hd | ⟨rfl, hd⟩
      · exact strField_dump _ _ _ _ hd rfl
      · unfold strField loadField; rw [hd]; rfl
    have key : DataElement.load (DataElement.dump ⟨disc, id, inp, ty, .valuePool p⟩) =
        DataElement.loadValuePool (DataElement.dump ⟨disc, id, inp, ty, .valuePool p⟩) := by
      cases inp <;> rfl
    rw [key]
    unfold DataElement.dump DataElement.dumpBase DataElement.loadValuePool
    simp only
    rw [strField_dump _ py!"discriminator" _ disc (by cases inp <;> rfl) rfl,
      strField_str _ py!"data_element_id" _ id (by cases inp <;> rfl),
      hin _ (by cases inp; exact .inr ⟨rfl, rfl⟩; exact .inl rfl),
      loadType_dump _ ty (by cases inp <;> rfl),
      loadListField_arr _ ValuePoolEntry.load py!"value_pool" _ ValuePoolEntry.dump (fun _ => true) (fun x => x) p (by cases inp <;> rfl)
        (fun x hx => by simpa using ValuePoolEntry.load_dump x (hp x hx))]
    have hu : ∀ j, hasUnknown (dataElementKeys ++ [py!"value_pool"])
      (([(py!"discriminator", dumpStr disc), (py!"data_element_id", Json.str id)] ++
        dumpInput inp ++ [(py!"value_type", j)]) ++
          [(py!"value_pool", Json.arr (p.map ValuePoolEntry.dump))]) = false := by
      intro j; cases inp <;> rfl
    rw [hu]
    cases ty with
    | none => simp [Loaded.isInvalid, Bind.bind, Except.bind]
    | some t => simpa [Loaded.isInvalid, Loaded.isMissing, Loaded.getD, Bind.bind, Except.bind, DataElement.withType_type] using h

/-! ## segments -/

/-- the segment can be loaded again -/
def Segment.complete (s : Segment) : Bool :=
  s.discriminator.isSome && s.sectionName.isSome && s.dataElements.all fun de => de.valueType.isSome

theorem Segment.load_dump (s : Segment) (h : s.Constructed) (hde : ∀ de ∈ s.dataElements, de.Constructed) :
    Segment.load s.dump = if s.complete then .ok s.resetAhbLineIndex else .error .validationError := by
  obtain ⟨disc, expr, idx, des, sec, sid⟩ := s
  unfold Segment.dump Segment.load
  simp only
  rw [strField_strict _ py!"discriminator" _ disc rfl rfl, strField_str _ py!"ahb_expression" _ expr rfl,
    loadListField_arr _ DataElement.load py!"data_elements" _ DataElement.dump (fun de => de.valueType.isSome) id des rfl
      (fun x hx => DataElement.load_dump x (hde x hx)),
    strField_strict _ py!"section_name" _ sec rfl rfl, strField_dump _ py!"segment_id" _ sid rfl rfl]
  have hu : hasUnknown [py!"discriminator", py!"ahb_expression", py!"data_elements",
          py!"section_name", py!"segment_id"] [(py!"discriminator", dumpStr disc), (py!"ahb_expression", .str expr),
    (py!"data_elements", .arr (des.map DataElement.dump)), (py!"section_name", dumpStr sec),
    (py!"segment_id", dumpStr sid)] = false := rfl
  rw [hu]
  have hnew : Segment.new disc (some expr) none des sec sid = .ok ⟨disc, expr, none, des, sec, sid⟩ := by
    unfold Segment.Constructed Segment.new at h
    unfold Segment.new
    simp only at h
    cases hc : checkSegmentLevelExpression (some expr) with
    | error e => simp [hc, Bind.bind, Except.bind] at h
    | ok e =>
      simp only [hc, Bind.bind, Except.bind] at h ⊢
      split at h
      · simp at h
      · rename_i hs
        rw [if_neg hs]
        simp only [pure, Except.pure, Except.ok.injEq, Segment.mk.injEq] at h ⊢
        exact ⟨h.1, h.2.1, trivial, h.2.2.2⟩
  unfold Segment.complete Segment.resetAhbLineIndex
  simp only
  cases hd : disc with
  | none => cases des.all (fun de => de.valueType.isSome) <;> simp [Loaded.isInvalid, Bind.bind, Except.bind]
  | some disc' =>
    cases hs : sec with
    | none => cases des.all (fun de => de.valueType.isSome) <;> simp [Loaded.isInvalid, Bind.bind, Except.bind]
    | some sec' =>
      rw [hd, hs] at hnew
      cases des.all (fun de => de.valueType.isSome) with
      | false => simp [Loaded.isInvalid, Bind.bind, Except.bind]
      | true => simpa [Loaded.isInvalid, Loaded.getD, Bind.bind, Except.bind] using hnew

/-! ## segment groups -/

namespace SegmentGroup

theorem dumpList_eq (l : List SegmentGroup) : dumpList l = l.map dump := by
  induction l with
  | nil => rfl
  | cons g l ih => simp [dumpList, ih]

theorem loadGroups_eq (l : List Json) : loadGroups l = loadItems load l := by
  induction l with
  | nil => simp [loadGroups, loadItems]
  | cons g l ih => simp [loadGroups, loadItems, ih]

mutual
/-- the group can be loaded again -/
def complete : SegmentGroup → Bool
  | mk d _ _ s gs => d.isSome && (s.getD []).all Segment.complete && completeOpt gs
/-- the same for the optional sub groups -/
def completeOpt : Option (List SegmentGroup) → Bool
  | none => true
  | some l => completeList l
/-- the same for all groups of a list -/
def completeList : List SegmentGroup → Bool
  | [] => true
  | g :: l => complete g && completeList l
end

theorem completeList_eq (l : List SegmentGroup) : completeList l = l.all complete := by
  induction l with
  | nil => rfl
  | cons g l ih => simp [completeList, ih]

theorem complete_eq (g : SegmentGroup) :
    g.complete = (g.discriminator.isSome && g.ownSegments.all Segment.complete && g.children.all complete) := by
  cases g with
  | mk d e i s gs => cases gs <;> simp [complete, completeOpt, discriminator, ownSegments, segments, children, segmentGroups, completeList_eq]

end SegmentGroup

theorem occurs_iff (l : List SegmentGroup) (h : SegmentGroup) :
    GroupOccurs l h ↔ ∃ g ∈ l, h = g ∨ GroupOccurs g.children h := by
  constructor
  · rintro ⟨a, ha⟩
    cases a with
    | nil => cases ha
    | cons i a =>
      simp only [groupAt?] at ha
      cases hg : l[i]? with
      | none => simp [hg] at ha
      | some g =>
        rw [hg, Option.bind_some] at ha
        refine ⟨g, List.mem_of_getElem? hg, ?_⟩
        cases a with
        | nil => rw [at?_nil] at ha; exact .inl (Option.some.inj ha).symm
        | cons j a => rw [at?_cons] at ha; exact .inr ⟨_, ha⟩
  · rintro ⟨g, hg, h | ⟨a, ha⟩⟩
    · rw [h]; exact groupOccurs_line hg
    · obtain ⟨i, hi⟩ := List.getElem?_of_mem hg
      cases a with
      | nil => cases ha
      | cons j a => exact ⟨i :: j :: a, by simp only [groupAt?, hi, Option.bind_some, at?_cons]; exact ha⟩

/-- everything in these groups is constructed -/
def AllConstructed (l : List SegmentGroup) : Prop :=
  (∀ g, GroupOccurs l g → g.Constructed) ∧ (∀ s, SegmentOccurs l s → s.Constructed) ∧
    ∀ de, DataElementOccurs l de → de.Constructed

theorem AllConstructed.children {l : List SegmentGroup} (h : AllConstructed l) {g : SegmentGroup} (hg : g ∈ l) :
    AllConstructed g.children := by
  obtain ⟨h1, h2, h3⟩ := h
  have key : ∀ x, GroupOccurs g.children x → GroupOccurs l x := fun x hx => (occurs_iff l x).2 ⟨g, hg, .inr hx⟩
  exact ⟨fun x hx => h1 x (key x hx), fun s ⟨x, hx, hs⟩ => h2 s ⟨x, key x hx, hs⟩,
    fun de ⟨s, ⟨x, hx, hs⟩, hd⟩ => h3 de ⟨s, ⟨x, key x hx, hs⟩, hd⟩⟩

theorem AllConstructed.mono {l l' : List SegmentGroup} (h : AllConstructed l) (hl : ∀ g ∈ l', g ∈ l) : AllConstructed l' := by
  obtain ⟨h1, h2, h3⟩ := h
  have key : ∀ x, GroupOccurs l' x → GroupOccurs l x := fun x hx => by
    obtain ⟨g, hg, hx⟩ := (occurs_iff l' x).1 hx
    exact (occurs_iff l x).2 ⟨g, hl g hg, hx⟩
  exact ⟨fun x hx => h1 x (key x hx), fun s ⟨x, hx, hs⟩ => h2 s ⟨x, key x hx, hs⟩,
    fun de ⟨s, ⟨x, hx, hs⟩, hd⟩ => h3 de ⟨s, ⟨x, key x hx, hs⟩, hd⟩⟩

namespace SegmentGroup

theorem loadGroupsField_ne (k : PyStr) (v : Json) (d : List (PyStr × Json)) (h : k ≠ py!"segment_groups") :
    loadGroupsField ((k, v) :: d) = loadGroupsField d := by
  conv => lhs; unfold loadGroupsField
  rw [if_neg h]

theorem loadGroupsField_null (d : List (PyStr × Json)) :
    loadGroupsField ((py!"segment_groups", .null) :: d) = .ok (.value none) := by
  conv => lhs; unfold loadGroupsField
  rfl

theorem loadGroupsField_arr (l : List Json) (d : List (PyStr × Json)) :
    loadGroupsField ((py!"segment_groups", .arr l) :: d) = loadedItems (loadGroups l) := by
  conv => lhs; unfold loadGroupsField
  rfl

theorem loadGroupsField_dump (disc expr segs : Json) (gs : Option (List SegmentGroup))
    (h : ∀ c ∈ gs.getD [], load (dump c) = if c.complete then .ok c.resetAhbLineIndex else .error .validationError) :
    loadGroupsField [(py!"discriminator", disc), (py!"ahb_expression", expr), (py!"segments", segs),
      (py!"segment_groups", dumpOpt gs)] =
      .ok (if completeOpt gs then .value (resetOpt gs) else .invalid) := by
  rw [loadGroupsField_ne _ _ _ (by decide), loadGroupsField_ne _ _ _ (by decide), loadGroupsField_ne _ _ _ (by decide)]
  cases gs with
  | none => rw [dumpOpt, loadGroupsField_null]; rfl
  | some l =>
    rw [dumpOpt, loadGroupsField_arr]
    rw [loadGroups_eq, dumpList_eq, loadItems_map load dump complete SegmentGroup.resetAhbLineIndex l (by simpa using h),
      completeOpt, completeList_eq, resetOpt, resetList_eq]
    cases l.all complete <;> rfl

theorem load_dump (g : SegmentGroup) : AllConstructed [g] →
    load g.dump = if g.complete then .ok g.resetAhbLineIndex else .error .validationError := by
  induction g using SegmentGroup.induct with
  | h g ih =>
    intro hall
    have hch := hall.children (List.mem_singleton.2 rfl)
    have ih' : ∀ c ∈ g.children, load (dump c) = if c.complete then .ok c.resetAhbLineIndex else .error .validationError :=
      fun c hc => ih c hc (hch.mono (by simpa using hc))
    have hg : g.Constructed := hall.1 g (groupOccurs_line (List.mem_singleton.2 rfl))
    have hs : ∀ s ∈ g.ownSegments, s.Constructed := fun s hs => hall.2.1 s ⟨g, groupOccurs_line (List.mem_singleton.2 rfl), hs⟩
    have hd : ∀ s ∈ g.ownSegments, ∀ de ∈ s.dataElements, de.Constructed :=
      fun s hs de hde => hall.2.2 de ⟨s, ⟨g, groupOccurs_line (List.mem_singleton.2 rfl), hs⟩, hde⟩
    cases g with
    | mk disc expr idx segs gs =>
      have hnew : ∀ a b, SegmentGroup.new disc (some expr) none a b = .ok (mk disc expr none a b) := by
        intro a b
        unfold SegmentGroup.Constructed SegmentGroup.new at hg
        unfold SegmentGroup.new
        simp only [ahbExpression] at hg
        cases hc : checkSegmentLevelExpression (some expr) with
        | error e => simp [hc, Bind.bind, Except.bind] at hg
        | ok e =>
          simp only [hc, Bind.bind, Except.bind, pure, Except.pure, Except.ok.injEq, mk.injEq] at hg ⊢
          exact ⟨trivial, hg.2.1, trivial, trivial, trivial⟩
      have hsegs : ∀ d, dictGet py!"segments" d = some (dumpSegments segs) →
          loadListField { defaultNone := true } Segment.load py!"segments" d =
            .ok (if (segs.getD []).all Segment.complete then
              .value (segs.map (List.map Segment.resetAhbLineIndex)) else .invalid) := by
        intro d hd'
        cases segs with
        | none => unfold loadListField; rw [hd']; rfl
        | some ss =>
          rw [loadListField_arr _ Segment.load _ d Segment.dump Segment.complete Segment.resetAhbLineIndex ss hd'
            (fun s hs' => Segment.load_dump s (hs s hs') (hd s hs'))]
          rfl
      have hu : hasUnknown keys [(py!"discriminator", dumpStr disc), (py!"ahb_expression", .str expr),
        (py!"segments", dumpSegments segs), (py!"segment_groups", dumpOpt gs)] = false := rfl
      rw [dump, load]
      rw [strField_strict _ py!"discriminator" _ disc rfl rfl, strField_str _ py!"ahb_expression" _ expr rfl, hsegs _ rfl,
        loadGroupsField_dump _ _ _ gs (by simpa [children, segmentGroups] using ih'), hu, complete, SegmentGroup.resetAhbLineIndex]
      cases disc with
      | none => cases (segs.getD []).all Segment.complete <;> cases completeOpt gs <;> simp [Loaded.isInvalid, Bind.bind, Except.bind]
      | some disc =>
        cases (segs.getD []).all Segment.complete <;> cases completeOpt gs <;>
          simp [Loaded.isInvalid, Bind.bind, Except.bind, Loaded.getD, hnew]

end SegmentGroup

theorem all_complete_iff (l : List SegmentGroup) : l.all SegmentGroup.complete = true ↔
    (∀ g, GroupOccurs l g → g.discriminator ≠ none) ∧
    (∀ s, SegmentOccurs l s → s.discriminator ≠ none ∧ s.sectionName ≠ none) ∧
    ∀ de, DataElementOccurs l de → de.valueType ≠ none := by
  have seg : ∀ s : Segment, s.complete = true ↔ (s.discriminator ≠ none ∧ s.sectionName ≠ none) ∧
      ∀ de ∈ s.dataElements, de.valueType ≠ none := by
    intro s
    simp [Segment.complete, Option.isSome_iff_ne_none]
  have grp : ∀ g : SegmentGroup, g.complete = true ↔ ∀ x, GroupOccurs [g] x →
      x.discriminator ≠ none ∧ ∀ s ∈ x.ownSegments, s.complete = true := by
    intro g
    induction g using SegmentGroup.induct with
    | h g ih =>
      rw [SegmentGroup.complete_eq]
      simp only [Bool.and_eq_true, List.all_eq_true, Option.isSome_iff_ne_none]
      constructor
      · rintro ⟨⟨h1, h2⟩, h3⟩ x hx
        obtain ⟨g', hg', hx⟩ := (occurs_iff _ _).1 hx
        rw [List.mem_singleton] at hg'
        rw [hg'] at hx
        rcases hx with hx | hx
        · rw [hx]; exact ⟨h1, h2⟩
        · obtain ⟨c, hc, hx⟩ := (occurs_iff _ _).1 hx
          exact (ih c hc).1 (h3 c hc) x ((occurs_iff _ _).2 ⟨c, by simp, hx⟩)
      · intro h
        have h0 := h g (groupOccurs_line (by simp))
        refine ⟨h0, fun c hc => (ih c hc).2 fun x hx => h x ?_⟩
        obtain ⟨c', hc', hx⟩ := (occurs_iff _ _).1 hx
        rw [List.mem_singleton] at hc'
        rw [hc'] at hx
        exact (occurs_iff _ _).2 ⟨g, by simp, .inr ((occurs_iff _ _).2 ⟨c, hc, hx⟩)⟩
  rw [List.all_eq_true]
  constructor
  · intro h
    have h' : ∀ x, GroupOccurs l x → x.discriminator ≠ none ∧ ∀ s ∈ x.ownSegments, s.complete = true := by
      intro x hx
      obtain ⟨g, hg, hx⟩ := (occurs_iff _ _).1 hx
      exact (grp g).1 (h g hg) x ((occurs_iff _ _).2 ⟨g, by simp, hx⟩)
    exact ⟨fun x hx => (h' x hx).1, fun s ⟨x, hx, hs⟩ => ((seg s).1 ((h' x hx).2 s hs)).1,
      fun de ⟨s, ⟨x, hx, hs⟩, hde⟩ => ((seg s).1 ((h' x hx).2 s hs)).2 de hde⟩
  · rintro ⟨h1, h2, h3⟩ g hg
    refine (grp g).2 fun x hx => ?_
    have hx' : GroupOccurs l x := by
      obtain ⟨g', hg', hx⟩ := (occurs_iff _ _).1 hx
      rw [List.mem_singleton] at hg'
      rw [hg'] at hx
      exact (occurs_iff _ _).2 ⟨g, hg, hx⟩
    exact ⟨h1 x hx', fun s hs => (seg s).2 ⟨h2 s ⟨x, hx', hs⟩, fun de hde => h3 de ⟨s, ⟨x, hx', hs⟩, hde⟩⟩⟩

/-! ## segment group hierarchies -/

namespace Sgh

theorem dumpList_eq (l : List Sgh) : dumpList l = l.map dump := by
  induction l with
  | nil => rfl
  | cons g l ih => simp [dumpList, ih]

theorem loadSubs_eq (l : List Json) : loadSubs l = loadItems load l := by
  induction l with
  | nil => simp [loadSubs, loadItems]
  | cons g l ih => simp [loadSubs, loadItems, ih]

theorem loadSubField_ne (k : PyStr) (v : Json) (d : List (PyStr × Json)) (h : k ≠ py!"sub_hierarchy") :
    loadSubField ((k, v) :: d) = loadSubField d := by
  conv => lhs; unfold loadSubField
  rw [if_neg h]

theorem loadSubField_null (d : List (PyStr × Json)) :
    loadSubField ((py!"sub_hierarchy", .null) :: d) = .ok (.value none) := by
  conv => lhs; unfold loadSubField
  rfl

theorem loadSubField_arr (l : List Json) (d : List (PyStr × Json)) :
    loadSubField ((py!"sub_hierarchy", .arr l) :: d) = loadedItems (loadSubs l) := by
  conv => lhs; unfold loadSubField
  rfl

theorem load_dump (s : Sgh) : load s.dump = .ok s := by
  induction s using Sgh.induct with
  | h s ih =>
    cases s with
    | mk k o sub =>
      have hsub : loadSubField [(py!"segment_group", dumpStr k), (py!"opening_segment", .str o),
          (py!"sub_hierarchy", dumpOpt sub)] = .ok (.value sub) := by
        rw [loadSubField_ne _ _ _ (by decide), loadSubField_ne _ _ _ (by decide)]
        cases sub with
        | none => rw [dumpOpt, loadSubField_null]
        | some l =>
          rw [dumpOpt, loadSubField_arr, loadSubs_eq, dumpList_eq, loadItems_map load dump (fun _ => true) (fun x => x) l
            (fun c hc => by simpa using ih c (by simpa [children, subHierarchy] using hc))]
          simp [loadedItems, Bind.bind, Except.bind, pure, Except.pure]
      have hu : hasUnknown [py!"segment_group", py!"opening_segment", py!"sub_hierarchy"]
        [(py!"segment_group", dumpStr k), (py!"opening_segment", .str o), (py!"sub_hierarchy", dumpOpt sub)] = false := rfl
      rw [dump, load]
      rw [strField_dump _ py!"segment_group" _ k rfl rfl, strField_str _ py!"opening_segment" _ o rfl, hsub, hu]
      simp [Loaded.isInvalid, Bind.bind, Except.bind, Loaded.getD]

end Sgh

/-! ## what is loaded has passed the validators -/

theorem collect_ok {α : Type} {item : PyRes α} {rest : PyRes (Option (List α))} {l : List α}
    (h : collect item rest = .ok (some l)) : ∃ a r, item = .ok a ∧ rest = .ok (some r) ∧ l = a :: r := by
  unfold collect at h
  split at h
  · rename_i a
    cases hr : rest with
    | error e => simp [hr, Bind.bind, Except.bind] at h
    | ok o =>
      cases o with
      | none => simp [hr, Bind.bind, Except.bind, pure, Except.pure] at h
      | some r =>
        simp [hr, Bind.bind, Except.bind, pure, Except.pure] at h
        exact ⟨a, r, rfl, rfl, h.symm⟩
  · cases hr : rest with
    | error e => simp [hr, Bind.bind, Except.bind] at h
    | ok o => simp [hr, Bind.bind, Except.bind, pure, Except.pure] at h
  · simp at h

theorem loadItems_ok {α : Type} {load : Json → PyRes α} {js : List Json} {l : List α}
    (h : loadItems load js = .ok (some l)) : ∀ a ∈ l, ∃ j, load j = .ok a := by
  induction js generalizing l with
  | nil => simp [loadItems] at h; simp [h]
  | cons j js ih =>
    obtain ⟨a, r, h1, h2, rfl⟩ := collect_ok h
    intro x hx
    rcases List.mem_cons.1 hx with rfl | hx
    · exact ⟨j, h1⟩
    · exact ih h2 x hx

theorem loadedItems_ok {α : Type} {r : PyRes (Option (List α))} {l : Option (List α)}
    (h : loadedItems r = .ok (.value l)) : ∃ l', l = some l' ∧ r = .ok (some l') := by
  unfold loadedItems at h
  cases r with
  | error e => simp [Bind.bind, Except.bind] at h
  | ok o =>
    cases o with
    | none => simp [Bind.bind, Except.bind, pure, Except.pure] at h
    | some l' =>
      simp [Bind.bind, Except.bind, pure, Except.pure] at h
      exact ⟨l', h.symm, rfl⟩

theorem loadListField_ok {α : Type} {o : FieldOpts} {load : Json → PyRes α} {key : PyStr} {d : List (PyStr × Json)}
    {l : Option (List α)} (h : loadListField o load key d = .ok (.value l)) : ∀ a ∈ l.getD [], ∃ j, load j = .ok a := by
  unfold loadListField at h
  split at h
  · split at h
    · simp at h
    · split at h
      · simp at h; simp [← h]
      · simp at h
  · split at h
    · simp at h; simp [← h]
    · simp at h
  · obtain ⟨l', rfl, h'⟩ := loadedItems_ok h
    exact loadItems_ok h'
  · simp at h

theorem Loaded.value_of {α : Type} {x : Loaded α} (h1 : x.isInvalid = false) (h2 : x.isMissing = false) : ∃ a, x = .value a := by
  cases x <;> simp_all [Loaded.isInvalid, Loaded.isMissing]

theorem parseHex_lt (s : PyStr) (n : Nat) (h : parseHex s = some n) : n < 16 ^ s.length := by
  induction s using List.reverseRecOn generalizing n with
  | nil => simp [parseHex] at h; simp [← h]
  | append_singleton s c ih =>
    unfold parseHex at h ih
    rw [List.foldl_append] at h
    simp only [List.foldl_cons, List.foldl_nil] at h
    cases hs : s.foldl (fun acc c => acc.bind fun n => (hexVal c).map fun v => 16 * n + v) (some 0) with
    | none => simp [hs] at h
    | some m =>
      have hm := ih m hs
      rw [hs, Option.bind_some] at h
      cases hv : hexVal c with
      | none => simp [hv] at h
      | some v =>
        rw [hv, Option.map_some, Option.some.injEq] at h
        have hv16 : v < 16 := by
          unfold hexVal at hv
          simp only at hv
          split at hv
          · simp only [Option.some.injEq] at hv; omega
          · split at hv
            · simp only [Option.some.injEq] at hv; omega
            · split at hv
              · simp only [Option.some.injEq] at hv; omega
              · simp at hv
        rw [List.length_append, List.length_singleton, Nat.pow_succ]
        omega

theorem parseUuid_lt (s : PyStr) (n : Nat) (h : parseUuid s = some n) : n < 2 ^ 128 := by
  unfold parseUuid at h
  simp only at h
  split at h
  · simp at h
  · rename_i hl
    have := pyIntHex_lt _ _ h
    rw [Classical.not_not.1 hl] at this
    simpa using this

theorem AhbLine.new_ok {l l' : AhbLine} (h : AhbLine.new l = .ok l') : l' = l := by
  unfold AhbLine.new at h
  split at h
  · simpa using h.symm
  · simp at h

theorem AhbLine.load_constructed (j : Json) (l : AhbLine) (h : AhbLine.load j = .ok l) : l.Constructed := by
  unfold AhbLine.load at h
  split at h
  · rename_i d
    simp only at h
    split at h
    · simp at h
    · have hl := AhbLine.new_ok h
      refine ⟨by rw [hl] at h ⊢; exact h, ?_⟩
      intro g hg
      rw [hl] at hg
      simp only at hg
      unfold loadField at hg
      split at hg
      · simp [Loaded.getD] at hg
      · simp [Loaded.getD] at hg
      · rename_i j' _ _
        split at hg
        · simp [Loaded.getD] at hg
        · rename_i n hn
          simp only [Loaded.getD, Option.some.injEq] at hg
          rw [← hg]
          cases j' <;> simp only [convUuid, reduceCtorEq] at hn
          exact parseUuid_lt _ _ hn
  · simp at h

theorem AhbMetaInformation.new_ok {l l' : AhbMetaInformation} (h : AhbMetaInformation.new l = .ok l') : l' = l := by
  unfold AhbMetaInformation.new at h
  split at h
  · simp at h
  · split at h
    · simp at h
    · simpa using h.symm

theorem AhbMetaInformation.load_constructed (j : Json) (l : AhbMetaInformation) (h : AhbMetaInformation.load j = .ok l) :
    AhbMetaInformation.new l = .ok l := by
  unfold AhbMetaInformation.load at h
  split at h
  · simp only at h
    split at h
    · simp at h
    · have hl := AhbMetaInformation.new_ok h
      rw [hl] at h ⊢; exact h
  · simp at h

theorem loadHandbook_ok {α β : Type} {load : Json → PyRes α} {make : AhbMetaInformation → List α → PyRes β} {j : Json}
    {b : β} (h : loadHandbook load make j = .ok b) : ∃ m l, make m l = .ok b ∧ AhbMetaInformation.new m = .ok m ∧
      ∀ x ∈ l, ∃ j, load j = .ok x := by
  unfold loadHandbook at h
  split at h
  · rename_i d
    cases h1 : loadNestedField AhbMetaInformation.load py!"meta" d with
    | error e => simp [h1, Bind.bind, Except.bind] at h
    | ok info =>
      cases h2 : loadListField {} load py!"lines" d with
      | error e => simp [h1, h2, Bind.bind, Except.bind] at h
      | ok lines =>
        simp only [h1, h2, Bind.bind, Except.bind] at h
        split at h
        · simp at h
        · split at h
          · rename_i _ m l _
            refine ⟨m, l, h, ?_, ?_⟩
            · unfold loadNestedField at h1
              split at h1
              · simp at h1
              · simp at h1
              · split at h1
                · rename_i hm
                  simp only [Except.ok.injEq, Loaded.value.injEq] at h1
                  rw [h1] at hm
                  exact AhbMetaInformation.load_constructed _ _ hm
                · simp at h1
                · simp at h1
            · exact fun x hx => loadListField_ok h2 x hx
          · simp at h
  · simp at h

theorem flat_load_constructed (j : Json) (f : FlatAhb) (h : FlatAhb.load j = .ok f) : f.Constructed := by
  obtain ⟨m, l, hf, hm, hl⟩ := loadHandbook_ok h
  have hf' : f = ⟨m, l⟩ := by
    unfold FlatAhb.new at hf
    cases hc : FlatAhb.checkLines l with
    | error e => simp [hc, Bind.bind, Except.bind] at hf
    | ok u => simpa [hc, Bind.bind, Except.bind, pure, Except.pure] using hf.symm
  rw [hf'] at hf ⊢
  refine ⟨hf, hm, fun x hx => ?_⟩
  obtain ⟨j', hj'⟩ := hl x hx
  exact AhbLine.load_constructed j' x hj'

theorem ValuePoolEntry.load_constructed (j : Json) (e : ValuePoolEntry) (h : ValuePoolEntry.load j = .ok e) : e.Constructed := by
  unfold ValuePoolEntry.load at h
  split at h
  · simp only at h
    split at h
    · simp at h
    · generalize Loaded.getD _ none = q at h
      generalize Loaded.getD _ none = m at h
      generalize Loaded.getD _ none = x at h
      unfold ValuePoolEntry.Constructed
      unfold ValuePoolEntry.new at h ⊢
      split at h
      · simp at h
      · rename_i hq
        split at h
        · simp at h
        · split at h
          · simp at h
          · rename_i hx
            simp only [Except.ok.injEq] at h
            rw [← h]
            have hq' : some (q.getD []) = q := by
              cases q with
              | none => exact absurd rfl hq
              | some s => rfl
            have hx' : some (x.getD []) = x := by
              cases x with
              | none => exact absurd rfl hx
              | some s => rfl
            simp only
            rw [hq', hx', if_neg hq, if_neg hx]
  · simp at h

theorem checkBase_id {disc id : Option PyStr} {x : PyStr} (h : DataElement.checkBase disc id = .ok x) : id = some x := by
  unfold DataElement.checkBase at h
  split at h
  · simp at h
  · split at h
    · simp at h
    · split at h
      · simp at h
      · simp only [Except.ok.injEq] at h; rw [h]

theorem DataElement.load_constructed (j : Json) (de : DataElement) (h : DataElement.load j = .ok de) :
    de.Constructed := by
  unfold DataElement.load at h
  split at h
  · split at h
    · unfold DataElement.loadValuePool at h
      simp only at h
      rename_i d _
      generalize (loadField {} convDataType py!"value_type" d) = ty at h
      cases hp : loadListField { required := true } ValuePoolEntry.load py!"value_pool" d with
      | error e => simp [hp, Bind.bind, Except.bind] at h
      | ok pool =>
        have hpool : ∀ e ∈ (pool.getD none).getD [], e.Constructed := by
          cases pool with
          | missing => simp [Loaded.getD]
          | invalid => simp [Loaded.getD]
          | value l =>
            intro e he
            obtain ⟨j', hj'⟩ := loadListField_ok hp e he
            exact ValuePoolEntry.load_constructed j' e hj'
        simp only [hp, Bind.bind, Except.bind] at h
        split at h
        · simp at h
        · split at h
          · simp at h
          · obtain ⟨t, -, h⟩ := DataElement.withType_ok h
            unfold newValuePool at h
            generalize Loaded.getD _ none = a at h
            generalize Loaded.getD _ none = b at h
            generalize Loaded.getD _ none = c at h
            cases hb : checkBase a b with
            | error e => simp [hb, Bind.bind, Except.bind] at h
            | ok x =>
              simp only [hb, Bind.bind, Except.bind, pure, Except.pure, Except.ok.injEq] at h
              rw [← h]
              refine ⟨?_, hpool⟩
              unfold newValuePool
              simp only
              rw [← checkBase_id hb, hb]
              rfl
    · unfold DataElement.loadFreeText at h
      simp only at h
      rename_i d _
      generalize (loadField {} convDataType py!"value_type" d) = ty at h
      split at h
      · simp at h
      · split at h
        · simp at h
        · obtain ⟨t, -, h⟩ := DataElement.withType_ok h
          unfold newFreeText at h
          generalize Loaded.getD (strField _ py!"discriminator" d) none = a at h
          generalize Loaded.getD (strField _ py!"data_element_id" d) none = b at h
          generalize Loaded.getD (strField _ py!"entered_input" d) none = c at h
          generalize Loaded.getD (strField _ py!"ahb_expression" d) none = x at h
          cases hb : checkBase a b with
          | error e => simp [hb, Bind.bind, Except.bind] at h
          | ok i =>
            simp only [hb, Bind.bind, Except.bind, pure, Except.pure] at h
            cases x with
            | none => simp at h
            | some x =>
              simp only at h
              split at h
              · simp at h
              · rename_i hx
                simp only [Except.ok.injEq] at h
                rw [← h]
                unfold DataElement.Constructed newFreeText
                simp only
                rw [← checkBase_id hb, hb]
                simp only [Bind.bind, Except.bind, if_neg hx]
                rfl
  · simp at h
  · simp at h
  · simp at h
  · simp at h

theorem checkSegmentLevelExpression_id {e : Option PyStr} {x : PyStr} (h : checkSegmentLevelExpression e = .ok x) : e = some x := by
  unfold checkSegmentLevelExpression at h
  split at h
  · simp at h
  · split at h
    · simp at h
    · simp only [Except.ok.injEq] at h; rw [h]

theorem strField_required {d : List (PyStr × Json)} {key : PyStr}
    (h : (strField { required := true } key d).isInvalid = false) : (strField { required := true } key d).getD none ≠ none := by
  unfold strField loadField at h ⊢
  split at h
  · simp [Loaded.isInvalid] at h
  · simp [Loaded.isInvalid] at h
  · split at h
    · simp [Loaded.isInvalid] at h
    · simp_all [Loaded.getD]

theorem Segment.load_constructed (j : Json) (s : Segment) (h : Segment.load j = .ok s) :
    s.Constructed ∧ s.discriminator ≠ none ∧ s.ahbLineIndex = none ∧
      ∀ de ∈ s.dataElements, de.Constructed := by
  unfold Segment.load at h
  split at h
  · rename_i d
    simp only at h
    cases hp : loadListField {} DataElement.load py!"data_elements" d with
    | error e => simp [hp, Bind.bind, Except.bind] at h
    | ok des =>
      simp only [hp, Bind.bind, Except.bind] at h
      split at h
      · simp at h
      · rename_i hinv
        simp only [Bool.or_eq_true, not_or, Bool.not_eq_true] at hinv
        have hd := strField_required hinv.1.1.1.1.1
        generalize Loaded.getD (strField { required := true } py!"discriminator" d) none = disc at h hd
        split at h
        · rename_i l
          unfold Segment.new at h
          generalize Loaded.getD _ none = expr at h
          generalize Loaded.getD _ none = sec at h
          generalize Loaded.getD _ none = sid at h
          cases hc : checkSegmentLevelExpression expr with
          | error e => simp [hc, Bind.bind, Except.bind] at h
          | ok e =>
            simp only [hc, Bind.bind, Except.bind, pure, Except.pure] at h
            split at h
            · simp at h
            · rename_i hs
              simp only [Except.ok.injEq] at h
              rw [← h]
              refine ⟨?_, hd, rfl, ?_⟩
              · unfold Segment.Constructed Segment.new
                simp only
                rw [← checkSegmentLevelExpression_id hc, hc]
                simp only [Bind.bind, Except.bind]
                rw [if_neg hs]
                rfl
              · intro de hde
                obtain ⟨j', hj'⟩ := loadListField_ok hp de hde
                exact DataElement.load_constructed j' de hj'
        · simp at h
  · simp at h

/-- what is known about a loaded group -/
def LoadedGroup (g : SegmentGroup) : Prop :=
  g.Constructed ∧ g.discriminator ≠ none ∧ g.ahbLineIndex = none ∧
    ∀ s ∈ g.ownSegments, s.Constructed ∧ s.discriminator ≠ none ∧ s.ahbLineIndex = none ∧
      ∀ de ∈ s.dataElements, de.Constructed

namespace SegmentGroup

theorem load_step {d : List (PyStr × Json)} {g : SegmentGroup} (h : load (.obj d) = .ok g) :
    ∃ l, loadGroupsField d = .ok (.value l) ∧ g.segmentGroups = l ∧ LoadedGroup g ∨
      loadGroupsField d = .ok .missing ∧ g.segmentGroups = none ∧ LoadedGroup g := by
  rw [load] at h
  cases hp : loadListField { defaultNone := true } Segment.load py!"segments" d with
  | error e => simp [hp, Bind.bind, Except.bind] at h
  | ok segs =>
    cases hq : loadGroupsField d with
    | error e => simp [hp, hq, Bind.bind, Except.bind] at h
    | ok gs =>
      simp only [hp, hq, Bind.bind, Except.bind] at h
      split at h
      · simp at h
      · rename_i hinv
        simp only [Bool.or_eq_true, not_or, Bool.not_eq_true] at hinv
        have hd := strField_required hinv.1.1.1.1
        generalize Loaded.getD (strField { required := true } py!"discriminator" d) none = disc at h hd
        unfold SegmentGroup.new at h
        generalize Loaded.getD (strField _ py!"ahb_expression" d) none = expr at h
        cases hc : checkSegmentLevelExpression expr with
        | error e => simp [hc, Bind.bind, Except.bind] at h
        | ok e =>
          simp only [hc, Bind.bind, Except.bind, pure, Except.pure, Except.ok.injEq] at h
          have hL : LoadedGroup g := by
            rw [← h]
            refine ⟨?_, hd, rfl, ?_⟩
            · unfold SegmentGroup.Constructed SegmentGroup.new
              simp only [ahbExpression]
              rw [← checkSegmentLevelExpression_id hc, hc]
              rfl
            · intro s hs
              simp only [ownSegments, segments] at hs
              cases segs with
              | missing => simp [Loaded.getD] at hs
              | invalid => simp [Loaded.getD] at hs
              | value l =>
                obtain ⟨j', hj'⟩ := loadListField_ok hp s hs
                exact Segment.load_constructed j' s hj'
          cases gs with
          | missing => exact ⟨none, .inr ⟨rfl, by rw [← h]; rfl, hL⟩⟩
          | invalid => simp [Loaded.isInvalid] at hinv
          | value l => exact ⟨l, .inl ⟨rfl, by rw [← h]; rfl, hL⟩⟩

mutual
theorem load_valid : ∀ (j : Json) (g : SegmentGroup), load j = .ok g → ∀ x, GroupOccurs [g] x → LoadedGroup x
  | .obj d, g, h => by
    intro x hx
    obtain ⟨g', hg', hx⟩ := (occurs_iff _ _).1 hx
    rw [List.mem_singleton] at hg'
    rw [hg'] at hx
    obtain ⟨l, ⟨h1, h2, h3⟩ | ⟨_, h2, h3⟩⟩ := load_step h
    · rcases hx with hx | hx
      · rw [hx]; exact h3
      · exact loadGroupsField_valid d l h1 x (by simpa [children, h2] using hx)
    · rcases hx with hx | hx
      · rw [hx]; exact h3
      · obtain ⟨_, hc, _⟩ := (occurs_iff _ _).1 hx
        simp [children, h2] at hc
  | .null, g, h => by unfold load at h; simp at h
  | .bool _, g, h => by unfold load at h; simp at h
  | .num _, g, h => by unfold load at h; simp at h
  | .float _, g, h => by unfold load at h; simp at h
  | .str _, g, h => by unfold load at h; simp at h
  | .arr _, g, h => by unfold load at h; simp at h
theorem loadGroupsField_valid : ∀ (d : List (PyStr × Json)) (l : Option (List SegmentGroup)),
    loadGroupsField d = .ok (.value l) → ∀ x, GroupOccurs (l.getD []) x → LoadedGroup x
  | [], l, h => by
    intro x hx
    simp only [loadGroupsField, Except.ok.injEq, Loaded.value.injEq] at h
    rw [← h] at hx
    obtain ⟨_, hc, _⟩ := (occurs_iff _ _).1 hx
    simp at hc
  | (k, .arr js) :: d, l, h => by
    by_cases hk : k = py!"segment_groups"
    · rw [hk, loadGroupsField_arr] at h
      obtain ⟨l', rfl, h'⟩ := loadedItems_ok h
      exact loadGroups_valid js l' h'
    · rw [loadGroupsField_ne _ _ _ hk] at h
      exact loadGroupsField_valid d l h
  | (k, .null) :: d, l, h => by
    by_cases hk : k = py!"segment_groups"
    · rw [hk, loadGroupsField_null] at h
      intro x hx
      simp only [Except.ok.injEq, Loaded.value.injEq] at h
      rw [← h] at hx
      obtain ⟨_, hc, _⟩ := (occurs_iff _ _).1 hx
      simp at hc
    · rw [loadGroupsField_ne _ _ _ hk] at h
      exact loadGroupsField_valid d l h
  | (k, .bool _) :: d, l, h => by
    by_cases hk : k = py!"segment_groups"
    · unfold loadGroupsField at h; simp [hk] at h
    · rw [loadGroupsField_ne _ _ _ hk] at h
      exact loadGroupsField_valid d l h
  | (k, .num _) :: d, l, h => by
    by_cases hk : k = py!"segment_groups"
    · unfold loadGroupsField at h; simp [hk] at h
    · rw [loadGroupsField_ne _ _ _ hk] at h
      exact loadGroupsField_valid d l h
  | (k, .float _) :: d, l, h => by
    by_cases hk : k = py!"segment_groups"
    · unfold loadGroupsField at h; simp [hk] at h
    · rw [loadGroupsField_ne _ _ _ hk] at h
      exact loadGroupsField_valid d l h
  | (k, .str _) :: d, l, h => by
    by_cases hk : k = py!"segment_groups"
    · unfold loadGroupsField at h; simp [hk] at h
    · rw [loadGroupsField_ne _ _ _ hk] at h
      exact loadGroupsField_valid d l h
  | (k, .obj _) :: d, l, h => by
    by_cases hk : k = py!"segment_groups"
    · unfold loadGroupsField at h; simp [hk] at h
    · rw [loadGroupsField_ne _ _ _ hk] at h
      exact loadGroupsField_valid d l h
theorem loadGroups_valid : ∀ (js : List Json) (l : List SegmentGroup), loadGroups js = .ok (some l) →
    ∀ x, GroupOccurs l x → LoadedGroup x
  | [], l, h => by
    intro x hx
    simp only [loadGroups, Except.ok.injEq, Option.some.injEq] at h
    rw [← h] at hx
    obtain ⟨_, hc, _⟩ := (occurs_iff _ _).1 hx
    simp at hc
  | j :: js, l, h => by
    rw [loadGroups] at h
    obtain ⟨a, r, h1, h2, rfl⟩ := collect_ok h
    intro x hx
    obtain ⟨c, hc, hx'⟩ := (occurs_iff _ _).1 hx
    rcases List.mem_cons.1 hc with hca | hc
    · exact load_valid j a h1 x ((occurs_iff _ _).2 ⟨a, by simp, hca ▸ hx'⟩)
    · exact loadGroups_valid js r h2 x ((occurs_iff _ _).2 ⟨c, hc, hx'⟩)
end

end SegmentGroup

theorem deep_load_valid (j : Json) (a : DeepAhb) (h : DeepAhb.load j = .ok a) :
    AhbMetaInformation.new a.ahbMeta = .ok a.ahbMeta ∧ ∀ g, GroupOccurs a.lines g → LoadedGroup g := by
  obtain ⟨m, l, hf, hm, hl⟩ := loadHandbook_ok h
  simp only [Except.ok.injEq] at hf
  rw [← hf]
  refine ⟨hm, fun g hg => ?_⟩
  obtain ⟨c, hc, hg⟩ := (occurs_iff _ _).1 hg
  obtain ⟨j', hj'⟩ := hl c hc
  exact SegmentGroup.load_valid j' c hj' g ((occurs_iff _ _).2 ⟨c, by simp, hg⟩)

end Verif
