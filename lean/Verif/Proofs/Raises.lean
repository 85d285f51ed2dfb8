import Verif.Model.Schema
import Verif.Proofs.JsonFuel
/-! which exceptions loading can raise -/

namespace Verif

/-- every exception is one of these -/
def Raises {α : Type} (S : Exc → Prop) (r : PyRes α) : Prop := ∀ e, r = .error e → S e

/-- `ValidationError`, `TypeError`, `ValueError` -/
def LoadExc (e : Exc) : Prop := e = .validationError ∨ e = .typeError ∨ e = .valueError

section
variable {α β : Type} {S : Exc → Prop}

theorem Raises.ok (a : α) : Raises S (.ok a : PyRes α) := fun e h => by cases h

theorem Raises.error {e : Exc} (h : S e) : Raises S (.error e : PyRes α) := fun e' h' => by cases h'; exact h

theorem Raises.bind {r : PyRes α} {f : α → PyRes β} (h : Raises S r) (hf : ∀ a, Raises S (f a)) : Raises S (r >>= f) := by
  cases r with
  | error e => exact fun e' h' => by cases h'; exact h e rfl
  | ok a => exact hf a

theorem Raises.map {r : PyRes α} {f : α → β} (h : Raises S r) : Raises S (r.map f) := by
  cases r with
  | error e => exact fun e' h' => by cases h'; exact h e rfl
  | ok a => exact .ok _

theorem Raises.mono {T : Exc → Prop} {r : PyRes α} (h : Raises S r) (hST : ∀ e, S e → T e) : Raises T r := fun e he => hST e (h e he)

theorem Raises.ite {c : Prop} [Decidable c] {a b : PyRes α} (ha : Raises S a) (hb : Raises S b) : Raises S (if c then a else b) := by
  split <;> assumption

end

theorem LoadExc.val : LoadExc .validationError := .inl rfl
theorem LoadExc.typ : LoadExc .typeError := .inr (.inl rfl)
theorem LoadExc.vlu : LoadExc .valueError := .inr (.inr rfl)

theorem raises_collect {α : Type} {S : Exc → Prop} {item : PyRes α} {rest : PyRes (Option (List α))} (h : Raises S item)
    (hr : Raises S rest) : Raises S (collect item rest) := by
  unfold collect
  split
  · exact hr.bind fun _ => .ok _
  · exact hr.bind fun _ => .ok _
  · rename_i e _
    exact .error (h e rfl)

theorem raises_loadItems {α : Type} {S : Exc → Prop} {load : Json → PyRes α} (h : ∀ j, Raises S (load j)) :
    ∀ l, Raises S (loadItems load l)
  | [] => .ok _
  | j :: l => raises_collect (h j) (raises_loadItems h l)

theorem raises_loadedItems {α : Type} {S : Exc → Prop} {r : PyRes (Option (List α))} (h : Raises S r) : Raises S (loadedItems r) :=
  h.bind fun _ => .ok _

theorem raises_loadListField {α : Type} {S : Exc → Prop} {o : FieldOpts} {load : Json → PyRes α} (h : ∀ j, Raises S (load j)) (key d) :
    Raises S (loadListField o load key d) := by
  unfold loadListField
  split
  · exact .ok _
  · exact .ok _
  · exact raises_loadedItems (raises_loadItems h _)
  · exact .ok _

theorem raises_loadNestedField {α : Type} {S : Exc → Prop} {load : Json → PyRes α} (h : ∀ j, Raises S (load j)) (key d) :
    Raises S (loadNestedField load key d) := by
  unfold loadNestedField
  split
  · exact .ok _
  · exact .ok _
  · rename_i j _ _
    split
    · exact .ok _
    · exact .ok _
    · rename_i e _ he
      exact .error (h j e he)

theorem raises_loadHandbook {α β : Type} {loadLine : Json → PyRes α} {make : AhbMetaInformation → List α → PyRes β}
    (h : ∀ j, Raises LoadExc (loadLine j)) (hm : ∀ m l, Raises LoadExc (make m l)) (j : Json) :
    Raises LoadExc (loadHandbook loadLine make j) := by
  have hmeta : ∀ j, Raises LoadExc (AhbMetaInformation.load j) := by
    intro j
    unfold AhbMetaInformation.load
    split
    · refine .ite (.error .val) ?_
      unfold AhbMetaInformation.new
      exact .ite (.error .vlu) (.ite (.error .vlu) (.ok _))
    · exact .error .val
  unfold loadHandbook
  split
  · refine (raises_loadNestedField hmeta _ _).bind fun info => (raises_loadListField h _ _).bind fun lines => .ite (.error .val) ?_
    split
    · exact hm _ _
    · exact .error .typ
  · exact .error .val

theorem raises_ahbLine (j : Json) : Raises LoadExc (AhbLine.load j) := by
  unfold AhbLine.load
  split
  · refine .ite (.error .val) ?_
    unfold AhbLine.new
    exact .ite (.ok _) (.error .vlu)
  · exact .error .val

theorem raises_flat (j : Json) : Raises LoadExc (FlatAhb.load j) :=
  raises_loadHandbook raises_ahbLine (fun m l => by
    unfold FlatAhb.new FlatAhb.checkLines
    exact (Raises.ite (.error .vlu) (.ite (.error .vlu) (.ok _))).bind fun _ => .ok _) j

theorem raises_valuePoolEntry (j : Json) : Raises LoadExc (ValuePoolEntry.load j) := by
  unfold ValuePoolEntry.load
  split
  · refine .ite (.error .val) ?_
    unfold ValuePoolEntry.new
    refine .ite (.error .vlu) ?_
    split
    · exact .error .typ
    · exact .ite (.error .vlu) (.ok _)
  · exact .error .val

theorem raises_checkBase (d e : Option PyStr) : Raises LoadExc (DataElement.checkBase d e) := by
  unfold DataElement.checkBase
  refine .ite (.error .vlu) ?_
  split
  · exact .error .typ
  · exact .ite (.error .vlu) (.ok _)

theorem raises_withType (arg : Option TypeArg) (d e : Option PyStr) {f : Option DataElementDataType → PyRes DataElement}
    (hf : ∀ t, Raises LoadExc (f t)) : Raises LoadExc (DataElement.withType arg d e f) := by
  unfold DataElement.withType
  split
  · exact hf _
  · exact (raises_checkBase _ _).bind fun _ => .error .typ

theorem raises_freeText (j : Json) : Raises LoadExc (DataElement.loadFreeText j) := by
  unfold DataElement.loadFreeText
  split
  · refine .ite (.error .val) (.ite (.error .typ) ?_)
    refine raises_withType _ _ _ fun t => ?_
    unfold DataElement.newFreeText
    refine (raises_checkBase _ _).bind fun _ => ?_
    split
    · exact .error .typ
    · exact .ite (.error .vlu) (.ok _)
  · exact .error .val

theorem raises_valuePool (j : Json) : Raises LoadExc (DataElement.loadValuePool j) := by
  unfold DataElement.loadValuePool
  split
  · refine (raises_loadListField raises_valuePoolEntry _ _).bind fun _ => .ite (.error .val) (.ite (.error .typ) ?_)
    refine raises_withType _ _ _ fun t => ?_
    unfold DataElement.newValuePool
    exact (raises_checkBase _ _).bind fun _ => .ok _
  · exact .error .val

theorem raises_dataElement (j : Json) : Raises LoadExc (DataElement.load j) := by
  unfold DataElement.load
  split
  · exact .ite (raises_valuePool _) (raises_freeText _)
  · exact .error .typ
  · exact .error .typ
  · exact .error .typ
  · exact .error .val

theorem raises_checkExpression (e : Option PyStr) : Raises LoadExc (checkSegmentLevelExpression e) := by
  unfold checkSegmentLevelExpression
  split
  · exact .error .typ
  · exact .ite (.error .vlu) (.ok _)

theorem raises_segment (j : Json) : Raises LoadExc (Segment.load j) := by
  unfold Segment.load
  split
  · refine (raises_loadListField raises_dataElement _ _).bind fun _ => .ite (.error .val) ?_
    split
    · unfold Segment.new
      exact (raises_checkExpression _).bind fun _ => .ite (.error .vlu) (.ok _)
    · exact .error .typ
  · exact .error .val

namespace SegmentGroup
mutual
theorem raises_load : ∀ j : Json, Raises LoadExc (load j)
  | .obj d => by
    rw [load]
    refine (raises_loadListField raises_segment _ _).bind fun _ => (raises_loadGroupsField d).bind fun _ => .ite (.error .val) ?_
    unfold SegmentGroup.new
    exact (raises_checkExpression _).bind fun _ => .ok _
  | .null => by rw [load]; exact .error .val; intro d h; cases h
  | .bool _ => by rw [load]; exact .error .val; intro d h; cases h
  | .num _ => by rw [load]; exact .error .val; intro d h; cases h
  | .float _ => by rw [load]; exact .error .val; intro d h; cases h
  | .str _ => by rw [load]; exact .error .val; intro d h; cases h
  | .arr _ => by rw [load]; exact .error .val; intro d h; cases h
theorem raises_loadGroupsField : ∀ d : List (PyStr × Json), Raises LoadExc (loadGroupsField d)
  | [] => by rw [loadGroupsField]; exact .ok _
  | (k, .arr l) :: d => by
    rw [loadGroupsField]
    exact .ite (raises_loadedItems (raises_loadGroups l)) (raises_loadGroupsField d)
  | (k, .null) :: d => by rw [loadGroupsField]; exact .ite (.ok _) (raises_loadGroupsField d)
  | (k, .bool _) :: d => by rw [loadGroupsField]; exact .ite (.ok _) (raises_loadGroupsField d); all_goals simp
  | (k, .num _) :: d => by rw [loadGroupsField]; exact .ite (.ok _) (raises_loadGroupsField d); all_goals simp
  | (k, .float _) :: d => by rw [loadGroupsField]; exact .ite (.ok _) (raises_loadGroupsField d); all_goals simp
  | (k, .str _) :: d => by rw [loadGroupsField]; exact .ite (.ok _) (raises_loadGroupsField d); all_goals simp
  | (k, .obj _) :: d => by rw [loadGroupsField]; exact .ite (.ok _) (raises_loadGroupsField d); all_goals simp
theorem raises_loadGroups : ∀ l : List Json, Raises LoadExc (loadGroups l)
  | [] => by rw [loadGroups]; exact .ok _
  | j :: l => by rw [loadGroups]; exact raises_collect (raises_load j) (raises_loadGroups l)
end
end SegmentGroup

theorem raises_deep (j : Json) : Raises LoadExc (DeepAhb.load j) :=
  raises_loadHandbook SegmentGroup.raises_load (fun _ _ => .ok _) j

namespace Sgh
mutual
theorem raises_load : ∀ j : Json, Raises LoadExc (load j)
  | .obj d => by
    rw [load]
    refine (raises_loadSubField d).bind fun _ => .ite (.error .val) ?_
    split
    · exact .ok _
    · exact .error .typ
  | .null => by rw [load]; exact .error .val; intro d h; cases h
  | .bool _ => by rw [load]; exact .error .val; intro d h; cases h
  | .num _ => by rw [load]; exact .error .val; intro d h; cases h
  | .float _ => by rw [load]; exact .error .val; intro d h; cases h
  | .str _ => by rw [load]; exact .error .val; intro d h; cases h
  | .arr _ => by rw [load]; exact .error .val; intro d h; cases h
theorem raises_loadSubField : ∀ d : List (PyStr × Json), Raises LoadExc (loadSubField d)
  | [] => by rw [loadSubField]; exact .ok _
  | (k, .arr l) :: d => by
    rw [loadSubField]
    exact .ite (raises_loadedItems (raises_loadSubs l)) (raises_loadSubField d)
  | (k, .null) :: d => by rw [loadSubField]; exact .ite (.ok _) (raises_loadSubField d)
  | (k, .bool _) :: d => by rw [loadSubField]; exact .ite (.ok _) (raises_loadSubField d); all_goals simp
  | (k, .num _) :: d => by rw [loadSubField]; exact .ite (.ok _) (raises_loadSubField d); all_goals simp
  | (k, .float _) :: d => by rw [loadSubField]; exact .ite (.ok _) (raises_loadSubField d); all_goals simp
  | (k, .str _) :: d => by rw [loadSubField]; exact .ite (.ok _) (raises_loadSubField d); all_goals simp
  | (k, .obj _) :: d => by rw [loadSubField]; exact .ite (.ok _) (raises_loadSubField d); all_goals simp
theorem raises_loadSubs : ∀ l : List Json, Raises LoadExc (loadSubs l)
  | [] => by rw [loadSubs]; exact .ok _
  | j :: l => by rw [loadSubs]; exact raises_collect (raises_load j) (raises_loadSubs l)
end
end Sgh

/-! ## reading JSON -/

/-- `JSONDecodeError` (a `ValueError`), or something that is outside the model -/
def ParseExc (e : Exc) : Prop := e = .valueError ∨ e = .other

theorem ParseExc.vlu : ParseExc .valueError := .inl rfl
theorem ParseExc.oth : ParseExc .other := .inr rfl

theorem raises_consUnit {n : Nat} {r : PyRes (List Nat × PyStr)} (h : Raises ParseExc r) : Raises ParseExc (consUnit n r) := by
  unfold consUnit
  split
  · exact .ok _
  · exact .error (h _ rfl)

theorem raises_scanUnits : ∀ s, Raises ParseExc (scanUnits s) := by
  intro s
  fun_induction scanUnits s with
  | case1 => exact .error .vlu
  | case2 => exact .ok _
  | case3 => exact raises_consUnit ‹_›
  | case4 => exact .error .vlu
  | case5 => exact raises_consUnit ‹_›
  | case6 => exact .error .vlu
  | case7 => exact .error .vlu
  | case8 => exact raises_consUnit ‹_›

theorem raises_parseJsonString (s : PyStr) : Raises ParseExc (parseJsonString s) := by
  unfold parseJsonString
  split
  · rename_i e h; exact .error (raises_scanUnits s e h)
  · split
    · exact .error .oth
    · exact .ok _

theorem raises_parseUnsigned (n : Bool) (s : PyStr) : Raises ParseExc (parseUnsigned n s) := by
  unfold parseUnsigned
  split
  · exact .error .vlu
  · exact .ite (.ok _) (.ite (.ok _) (.error .vlu))

theorem raises_parseScalar (s : PyStr) : Raises ParseExc (parseScalar s) := by
  unfold parseScalar
  refine .ite (.ok _) (.ite (.ok _) (.ite (.ok _) (.ite (.ok _) (.ite (.ok _) (.ite (.ok _) ?_)))))
  split <;> exact raises_parseUnsigned _ _

theorem raises_parse (fuel : Nat) : (∀ s, Raises ParseExc (parseJsonValue fuel s)) ∧ (∀ s, Raises ParseExc (parseJsonItems fuel s)) ∧
    ∀ s, Raises ParseExc (parseJsonMembers fuel s) := by
  induction fuel with
  | zero =>
    refine ⟨fun s => ?_, fun s => ?_, fun s => ?_⟩
    · rw [parseJsonValue]; exact .error .oth
    · rw [parseJsonItems]; exact .error .oth
    · rw [parseJsonMembers]; exact .error .oth
  | succ fuel ih =>
    obtain ⟨h1, h2, h3⟩ := ih
    refine ⟨fun s => ?_, fun s => ?_, fun s => ?_⟩
    · unfold parseJsonValue
      split
      · exact (raises_parseJsonString _).map
      · split
        · exact .ok _
        · exact (h2 _).map
      · split
        · exact .ok _
        · exact (h3 _).map
        · exact .error .vlu
      · exact raises_parseScalar _
    · unfold parseJsonItems
      split
      · rename_i e h; exact .error (h1 _ e h)
      · split
        · exact .ok _
        · exact (h2 _).map
        · exact .error .vlu
    · unfold parseJsonMembers
      split
      · rename_i e h; exact .error (raises_parseJsonString _ e h)
      · split
        · split
          · rename_i e h; exact .error (h1 _ e h)
          · split
            · exact .ok _
            · split
              · exact (h3 _).map
              · exact .error .vlu
            · exact .error .vlu
        · exact .error .vlu

theorem raises_jsonLoads (s : PyStr) : Raises ParseExc (jsonLoads s) := by
  unfold jsonLoads
  refine .ite (.error .vlu) ?_
  split
  · rename_i e h; exact .error ((raises_parse _).1 _ e h)
  · exact .ite (.ok _) (.error .vlu)

end Verif
