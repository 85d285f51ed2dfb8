import Verif.Proofs.JsonText
/-! loading does not depend on the order of the members of a dictionary -/

namespace Verif
open Json

theorem sameMembers_keys {d e : List (PyStr × Json)} (h : SameMembers d e) : d.map Prod.fst = e.map Prod.fst := by
  induction d generalizing e with
  | nil => cases h; rfl
  | cons m d ih => cases h with
    | cons h1 h2 => simp [ih h2]

/-- both `none`, or both a value, and the same one -/
def SameOption : Option Json → Option Json → Prop
  | none, none => True
  | some a, some b => a.Same b
  | _, _ => False

theorem dictGet_sameMembers {d e : List (PyStr × Json)} (h : SameMembers d e) (k : PyStr) :
    SameOption (dictGet k d) (dictGet k e) := by
  induction d generalizing e with
  | nil => cases h; trivial
  | cons m d ih =>
    cases h with
    | cons h1 h2 =>
      unfold dictGet
      split
      · exact h1
      · exact ih h2

theorem dictGet_perm {d e : List (PyStr × Json)} (hn : (d.map Prod.fst).Nodup) (hp : d.Perm e) (k : PyStr) :
    dictGet k d = dictGet k e := by
  have hn' : (e.map Prod.fst).Nodup := (hp.map _).nodup_iff.1 hn
  cases h : dictGet k e with
  | some v => rw [dictGet_eq_some hn, hp.mem_iff]; exact (dictGet_eq_some hn').1 h
  | none =>
    cases h' : dictGet k d with
    | none => rfl
    | some v =>
      have := (dictGet_eq_some hn').2 (hp.mem_iff.1 ((dictGet_eq_some hn).1 h'))
      rw [h] at this
      cases this

/-- the members of two dictionaries that are equal in Python -/
structure SameDict (d d' : List (PyStr × Json)) : Prop where
  keys : (d.map Prod.fst).Nodup
  values : ∀ m ∈ d, m.2.IsPython
  same : ∃ e, SameMembers d e ∧ e.Perm d'

theorem sameDict_of_same {d : List (PyStr × Json)} {j : Json} (hp : (Json.obj d).IsPython) (h : (Json.obj d).Same j) :
    ∃ d', j = .obj d' ∧ SameDict d d' := by
  rw [Json.IsPython] at hp
  cases h with
  | obj h1 h2 => exact ⟨_, rfl, hp.1, (isPythonMembers_iff _).1 hp.2, _, h1, h2⟩

theorem mem_of_jsonGet {k : PyStr} {v : Json} {d : List (PyStr × Json)} (h : dictGet k d = some v) : (k, v) ∈ d := by
  induction d with
  | nil => cases h
  | cons m d ih =>
    unfold dictGet at h
    split at h
    · rename_i hk; injection h with h; subst h; rw [← hk]; exact List.mem_cons_self
    · exact List.mem_cons_of_mem _ (ih h)

theorem SameDict.get {d d' : List (PyStr × Json)} (h : SameDict d d') (k : PyStr) :
    SameOption (dictGet k d) (dictGet k d') ∧ ∀ v, dictGet k d = some v → v.IsPython := by
  obtain ⟨h1, h2, e, h3, h4⟩ := h
  refine ⟨?_, fun v hv => h2 _ (mem_of_jsonGet hv)⟩
  rw [← dictGet_perm (by rw [← sameMembers_keys h3]; exact h1) h4 k]
  exact dictGet_sameMembers h3 k

theorem SameDict.hasUnknown {d d' : List (PyStr × Json)} (h : SameDict d d') (known : List PyStr) :
    hasUnknown known d = hasUnknown known d' := by
  obtain ⟨_, _, e, h3, h4⟩ := h
  have hk : ∀ x : List (PyStr × Json), Verif.hasUnknown known x = (x.map Prod.fst).any fun k => !known.contains k := by
    intro x; rw [Verif.hasUnknown, List.any_map]; rfl
  rw [hk, hk, sameMembers_keys h3, Bool.eq_iff_iff, List.any_eq_true, List.any_eq_true]
  constructor
  · rintro ⟨k, h5, h6⟩; exact ⟨k, (h4.map _).mem_iff.1 h5, h6⟩
  · rintro ⟨k, h5, h6⟩; exact ⟨k, (h4.map _).mem_iff.2 h5, h6⟩

theorem SameDict.field {α : Type} {d d' : List (PyStr × Json)} (h : SameDict d d') (o : FieldOpts) (conv : Json → Option α) (key : PyStr)
    (hc : ∀ a b, Same a b → conv a = conv b) : loadField o conv key d = loadField o conv key d' := by
  have h1 := (h.get key).1
  unfold loadField
  cases hd : dictGet key d with
  | none =>
    cases hd' : dictGet key d' with
    | none => rfl
    | some b => rw [hd, hd'] at h1; cases h1
  | some a =>
    cases hd' : dictGet key d' with
    | none => rw [hd, hd'] at h1; cases h1
    | some b =>
      rw [hd, hd'] at h1
      have h2 := hc a b h1
      cases h1 <;> simp only [h2]

theorem convStr_same (a b : Json) (h : Same a b) : convStr a = convStr b := by cases h <;> rfl
theorem convInt_same (a b : Json) (h : Same a b) : convInt a = convInt b := by cases h <;> rfl
theorem convUuid_same (a b : Json) (h : Same a b) : convUuid a = convUuid b := by cases h <;> rfl
theorem convDataType_same (a b : Json) (h : Same a b) : convDataType a = convDataType b := by cases h <;> rfl

theorem SameDict.str {d d' : List (PyStr × Json)} (h : SameDict d d') (o : FieldOpts) (key : PyStr) :
    strField o key d = strField o key d' := h.field o convStr key convStr_same

theorem loadItems_same {α : Type} {load : Json → PyRes α} {l l' : List Json}
    (hl : ∀ a ∈ l, a.IsPython → ∀ b, Same a b → load a = load b)
    (hp : IsPythonItems l) (h : SameItems l l') : loadItems load l = loadItems load l' := by
  induction l generalizing l' with
  | nil => cases h; rfl
  | cons j l ih =>
    cases h with
    | cons h1 h2 =>
      rw [IsPythonItems] at hp
      unfold loadItems
      rw [hl j List.mem_cons_self hp.1 _ h1, ih (fun a ha => hl a (List.mem_cons_of_mem _ ha)) hp.2 h2]

theorem SameDict.list {α : Type} {d d' : List (PyStr × Json)} (h : SameDict d d') (o : FieldOpts) (load : Json → PyRes α) (key : PyStr)
    (hl : ∀ l, dictGet key d = some (.arr l) → ∀ a ∈ l, a.IsPython → ∀ b, Same a b → load a = load b) :
    loadListField o load key d = loadListField o load key d' := by
  obtain ⟨h1, h2⟩ := h.get key
  unfold loadListField
  cases hd : dictGet key d with
  | none =>
    cases hd' : dictGet key d' with
    | none => rfl
    | some b => rw [hd, hd'] at h1; cases h1
  | some a =>
    cases hd' : dictGet key d' with
    | none => rw [hd, hd'] at h1; cases h1
    | some b =>
      rw [hd, hd'] at h1
      have h3 := h2 a hd
      cases h1 with
      | arr h4 =>
        rw [IsPython] at h3
        simp only
        rw [loadItems_same (hl _ hd) h3 h4]
      | null => rfl
      | float => rfl
      | bool => rfl
      | num => rfl
      | str => rfl
      | obj => rfl

theorem SameDict.nested {α : Type} {d d' : List (PyStr × Json)} (h : SameDict d d') (load : Json → PyRes α) (key : PyStr)
    (hl : ∀ a, a.IsPython → ∀ b, Same a b → load a = load b) : loadNestedField load key d = loadNestedField load key d' := by
  obtain ⟨h1, h2⟩ := h.get key
  unfold loadNestedField
  cases hd : dictGet key d with
  | none =>
    cases hd' : dictGet key d' with
    | none => rfl
    | some b => rw [hd, hd'] at h1; cases h1
  | some a =>
    cases hd' : dictGet key d' with
    | none => rw [hd, hd'] at h1; cases h1
    | some b =>
      rw [hd, hd'] at h1
      have h3 := hl a (h2 a hd) b h1
      cases h1 <;> simp only [h3]

/-- loading does not depend on the order of the members -/
def OrderFree {α : Type} (load : Json → PyRes α) : Prop := ∀ a, a.IsPython → ∀ b, Same a b → load a = load b

theorem orderFree_of_obj {α : Type} {load : Json → PyRes α} (h : ∀ d d', (Json.obj d).IsPython → SameDict d d' → load (.obj d) = load (.obj d'))
    (ha : ∀ l l', load (.arr l) = load (.arr l')) : OrderFree load := by
  intro a hp b hs
  cases a with
  | obj d => obtain ⟨d', rfl, h'⟩ := sameDict_of_same hp hs; exact h d d' hp h'
  | arr l => cases hs; exact ha _ _
  | null => cases hs; rfl
  | bool => cases hs; rfl
  | num => cases hs; rfl
  | float => cases hs; rfl
  | str => cases hs; rfl

theorem AhbLine.load_orderFree : OrderFree AhbLine.load :=
  orderFree_of_obj (fun d d' _ h => by
    unfold AhbLine.load
    simp only [h.str, h.field _ _ _ convUuid_same, h.field _ _ _ convInt_same, h.hasUnknown]) fun _ _ => rfl

theorem AhbMetaInformation.load_orderFree : OrderFree AhbMetaInformation.load :=
  orderFree_of_obj (fun d d' _ h => by
    unfold AhbMetaInformation.load
    simp only [h.str, h.hasUnknown]) fun _ _ => rfl

theorem loadHandbook_orderFree {α β : Type} {loadLine : Json → PyRes α} (make : AhbMetaInformation → List α → PyRes β)
    (hl : OrderFree loadLine) : OrderFree (loadHandbook loadLine make) :=
  orderFree_of_obj (fun d d' _ h => by
    unfold loadHandbook
    simp only [h.hasUnknown, h.nested _ _ AhbMetaInformation.load_orderFree, h.list {} loadLine py!"lines" fun _ _ a _ => hl a]) fun _ _ => rfl

theorem FlatAhb.load_orderFree : OrderFree FlatAhb.load := loadHandbook_orderFree FlatAhb.new AhbLine.load_orderFree

theorem ValuePoolEntry.load_orderFree : OrderFree ValuePoolEntry.load :=
  orderFree_of_obj (fun d d' _ h => by
    unfold ValuePoolEntry.load
    simp only [h.str, h.hasUnknown]) fun _ _ => rfl

theorem DataElement.load_orderFree : OrderFree DataElement.load :=
  orderFree_of_obj (fun d d' _ h => by
    unfold DataElement.load
    have h1 := (h.get py!"value_pool").1
    have h2 : (dictGet py!"value_pool" d).isSome = (dictGet py!"value_pool" d').isSome := by
      cases hd : dictGet py!"value_pool" d <;> cases hd' : dictGet py!"value_pool" d' <;> rw [hd, hd'] at h1 <;> first | rfl | cases h1
    simp only [h2]
    split
    · unfold loadValuePool
      simp only [h.str, h.hasUnknown, h.field _ _ _ convDataType_same,
        h.list { required := true } ValuePoolEntry.load py!"value_pool" fun _ _ a _ => ValuePoolEntry.load_orderFree a]
    · unfold loadFreeText
      simp only [h.str, h.hasUnknown, h.field _ _ _ convDataType_same]) fun _ _ => rfl

theorem Segment.load_orderFree : OrderFree Segment.load :=
  orderFree_of_obj (fun d d' _ h => by
    unfold Segment.load
    simp only [h.str, h.hasUnknown, h.list {} DataElement.load py!"data_elements" fun _ _ a _ => DataElement.load_orderFree a]) fun _ _ => rfl

theorem sizeOf_of_dictGet {k : PyStr} {l : List Json} {d : List (PyStr × Json)} (h : dictGet k d = some (.arr l)) {a : Json} (ha : a ∈ l) :
    sizeOf a < sizeOf (Json.obj d) := by
  have h1 := List.sizeOf_lt_of_mem ha
  have h2 := List.sizeOf_lt_of_mem (mem_of_jsonGet h)
  simp only [Prod.mk.sizeOf_spec, Json.arr.sizeOf_spec, Json.obj.sizeOf_spec] at h1 h2 ⊢
  omega

theorem SegmentGroup.loadGroupsField_eq (d : List (PyStr × Json)) :
    SegmentGroup.loadGroupsField d = loadListField { defaultNone := true } SegmentGroup.load py!"segment_groups" d := by
  induction d with
  | nil => rfl
  | cons m d ih =>
    obtain ⟨k, v⟩ := m
    unfold loadGroupsField loadListField dictGet
    split
    · cases v <;> simp [loadGroups_eq]
    · rw [ih]; rfl

theorem SegmentGroup.load_orderFree : OrderFree SegmentGroup.load := by
  have : ∀ n, ∀ a : Json, sizeOf a < n → a.IsPython → ∀ b, Same a b → SegmentGroup.load a = SegmentGroup.load b := by
    intro n
    induction n with
    | zero => intro a h; omega
    | succ n ih =>
      intro a hsz hp b hs
      cases a with
      | obj d =>
        obtain ⟨d', rfl, h⟩ := sameDict_of_same hp hs
        unfold load
        rw [loadGroupsField_eq, loadGroupsField_eq, h.list { defaultNone := true } SegmentGroup.load py!"segment_groups" fun l hl a ha =>
          ih a (by have := sizeOf_of_dictGet hl ha; omega)]
        simp only [h.str, h.hasUnknown, h.list { defaultNone := true } Segment.load py!"segments" fun _ _ a _ => Segment.load_orderFree a]
      | arr l => cases hs; unfold load; rfl
      | null => cases hs; rfl
      | bool => cases hs; rfl
      | num => cases hs; rfl
      | float => cases hs; rfl
      | str => cases hs; rfl
  intro a hp b hs
  exact this (sizeOf a + 1) a (by omega) hp b hs

theorem DeepAhb.load_orderFree : OrderFree DeepAhb.load := loadHandbook_orderFree _ SegmentGroup.load_orderFree

theorem Sgh.loadSubField_eq (d : List (PyStr × Json)) :
    Sgh.loadSubField d = loadListField { allowNone := true } Sgh.load py!"sub_hierarchy" d := by
  induction d with
  | nil => rfl
  | cons m d ih =>
    obtain ⟨k, v⟩ := m
    unfold loadSubField loadListField dictGet
    split
    · cases v <;> simp [loadSubs_eq]
    · rw [ih]; rfl

theorem Sgh.load_orderFree : OrderFree Sgh.load := by
  have : ∀ n, ∀ a : Json, sizeOf a < n → a.IsPython → ∀ b, Same a b → Sgh.load a = Sgh.load b := by
    intro n
    induction n with
    | zero => intro a h; omega
    | succ n ih =>
      intro a hsz hp b hs
      cases a with
      | obj d =>
        obtain ⟨d', rfl, h⟩ := sameDict_of_same hp hs
        unfold load
        rw [loadSubField_eq, loadSubField_eq, h.list { allowNone := true } Sgh.load py!"sub_hierarchy" fun l hl a ha =>
          ih a (by have := sizeOf_of_dictGet hl ha; omega)]
        simp only [h.str, h.hasUnknown]
      | arr l => cases hs; unfold load; rfl
      | null => cases hs; rfl
      | bool => cases hs; rfl
      | num => cases hs; rfl
      | float => cases hs; rfl
      | str => cases hs; rfl
  intro a hp b hs
  exact this (sizeOf a + 1) a (by omega) hp b hs

end Verif
