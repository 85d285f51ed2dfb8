import Verif.Props.DeepRaises
import Verif.Props.MigXml
import Verif.Props.SchemaErrors
import Verif.Props.Constructors
import Verif.Model.Cli
/-! nothing but the command line tool itself raises `click.Abort` (for C110) -/

namespace Verif

/-- the result is not `click.Abort` -/
def NoAbort {α : Type} (r : PyRes α) : Prop := r ≠ .error .abort

theorem NoAbort.ok {α : Type} (a : α) : NoAbort (.ok a) := by unfold NoAbort; simp

theorem NoAbort.pure {α : Type} (a : α) : NoAbort (Pure.pure a : PyRes α) := NoAbort.ok a

theorem NoAbort.bind {α β : Type} {r : PyRes α} {f : α → PyRes β} (h : NoAbort r) (hf : ∀ a, r = .ok a → NoAbort (f a)) :
    NoAbort (r >>= f) := by
  cases r with
  | error e => exact fun h' => h (by injection h' with h'; rw [h'])
  | ok a => exact hf a rfl

theorem NoAbort.map {α β : Type} {r : PyRes α} {f : α → β} (h : NoAbort r) : NoAbort (r.map f) := by
  cases r with
  | error e => exact fun h' => h (by injection h' with h'; rw [h'])
  | ok a => exact .ok _

theorem NoAbort.foldlM {α β : Type} {f : β → α → PyRes β} (h : ∀ b a, NoAbort (f b a)) : ∀ (l : List α) (b : β), NoAbort (l.foldlM f b)
  | [], b => .ok b
  | a :: l, b => by rw [List.foldlM_cons]; exact (h b a).bind fun b' _ => NoAbort.foldlM h l b'

/-! ## navigation -/

theorem noAbort_pyLast {α : Type} (l : List α) : NoAbort (pyLast l) := by
  unfold pyLast NoAbort; split <;> simp

theorem noAbort_pyPop {α : Type} (l : List α) : NoAbort (pyPop l) := by
  unfold pyPop NoAbort; split <;> simp

theorem noAbort_layer (k o q : Option PyStr) : NoAbort (AhbLocationLayer.new k o q) := by
  unfold AhbLocationLayer.new NoAbort; repeat' split
  all_goals simp

theorem noAbort_location (l : List AhbLocationLayer) (c d q : Option PyStr) (p : Bool) : NoAbort (AhbLocation.new l c d q p) := by
  unfold AhbLocation.new NoAbort; repeat' split
  all_goals simp

theorem noAbort_commonAncestor (x y : AhbLocation) : NoAbort (findCommonAncestor x y) := noAbort_location _ _ _ _ _

mutual
theorem noAbort_pseudo (k : Option PyStr) : ∀ (s : Sgh) (l : List AhbLocationLayer), NoAbort (constructPseudoLocation k s l)
  | .mk k' o sub, l => by
    rw [constructPseudoLocation]
    refine (noAbort_layer _ _ _).bind fun a _ => ?_
    dsimp only
    split
    · exact (noAbort_location _ _ _ _ _).bind fun _ _ => .pure _
    · exact noAbort_pseudoOpt k sub _
theorem noAbort_pseudoOpt (k : Option PyStr) : ∀ (s : Option (List Sgh)) (l : List AhbLocationLayer),
    NoAbort (constructPseudoLocationOpt k s l)
  | none, l => by rw [constructPseudoLocationOpt]; exact .ok _
  | some s, l => by rw [constructPseudoLocationOpt]; exact noAbort_pseudoList k s l
theorem noAbort_pseudoList (k : Option PyStr) : ∀ (s : List Sgh) (l : List AhbLocationLayer),
    NoAbort (constructPseudoLocationList k s l)
  | [], l => by rw [constructPseudoLocationList]; exact .ok _
  | s :: ss, l => by
    rw [constructPseudoLocationList]
    refine (noAbort_pseudo k s l).bind fun a _ => ?_
    split
    · exact .pure _
    · exact noAbort_pseudoList k ss l
end

theorem noAbort_fromSgh (x y : Option PyStr) (s : Sgh) : NoAbort (findCommonAncestorFromSgh x y s) := by
  unfold findCommonAncestorFromSgh
  refine (noAbort_pseudo x s []).bind fun a _ => ?_
  split
  · simp [NoAbort]
  · refine (noAbort_pseudo y s []).bind fun a _ => ?_
    split
    · simp [NoAbort]
    · exact noAbort_commonAncestor _ _

theorem noAbort_distance (x y : AhbLocation) : NoAbort (calculateDistance x y) := by
  unfold calculateDistance
  refine (noAbort_commonAncestor x y).bind fun a _ => ?_
  unfold AhbLocationDistance.new NoAbort
  split <;> simp

theorem noAbort_leavePops (k : Option PyStr) : ∀ (n : Nat) (l : List AhbLocationLayer), NoAbort (leavePops k n l)
  | 0, l => .ok l
  | n + 1, l => by
    rw [leavePops]
    refine (noAbort_pyPop l).bind fun a _ => (noAbort_pyLast a).bind fun b _ => ?_
    dsimp only
    split
    · exact (noAbort_pyPop _).bind fun c _ => noAbort_leavePops k n c
    · exact (NoAbort.pure _).bind fun c _ => noAbort_leavePops k n c

theorem noAbort_append (st : LocState) (line : AhbLine) (c : Option PyStr) (l : List AhbLocationLayer) :
    NoAbort (appendLocation st line c l) := (noAbort_location _ _ _ _ _).bind fun _ _ => .pure _

theorem noAbort_initialLayers (s : Sgh) (st : LocState) (q : Option PyStr) : NoAbort (initialLayers s st q) := by
  unfold initialLayers
  refine (noAbort_pyLast _).bind fun a _ => ?_
  split
  · exact (noAbort_layer _ _ _).bind fun _ _ => .pure _
  · exact .pure _

theorem noAbort_locStep (s : Sgh) (st : LocState) (item : (AhbLine × Change) × Option PyStr × Option PyStr) :
    NoAbort (locStep s st item) := by
  obtain ⟨⟨line, change⟩, seg, q⟩ := item
  unfold locStep
  refine (noAbort_initialLayers _ _ _).bind fun a _ => ?_
  cases change with
  | stay => exact noAbort_append _ _ _ _
  | moveToNeighbourSameKey => exact (noAbort_pyPop _).bind fun _ _ => (noAbort_layer _ _ _).bind fun _ _ => noAbort_append _ _ _ _
  | diveIntoSubGroup => exact (noAbort_layer _ _ _).bind fun _ _ => noAbort_append _ _ _ _
  | leaveToParentAndDive =>
    exact (noAbort_pyLast _).bind fun _ _ => (noAbort_pyLast _).bind fun _ _ => (noAbort_fromSgh _ _ _).bind fun _ _ =>
      (noAbort_distance _ _).bind fun _ _ => (noAbort_leavePops _ _ _).bind fun _ _ => (noAbort_layer _ _ _).bind fun _ _ =>
      noAbort_append _ _ _ _
  | leaveToParent => simp [NoAbort]
  | moveToNeighbourDifferentKey => exact .pure _

theorem noAbort_pyGet {α : Type} (l : List α) (i : Int) : NoAbort (pyGet l i) := by
  unfold pyGet NoAbort; dsimp only; repeat' split
  all_goals simp

theorem noAbort_fill (lines : List AhbLine) : ∀ (n : Nat) (i : Int), NoAbort (enhanceFill lines n i)
  | 0, _ => .ok _
  | n + 1, i => (noAbort_pyGet _ _).bind fun _ _ => (noAbort_fill lines n _).bind fun _ _ => .pure _

theorem noAbort_enhance (p : AhbLine → Bool) (f : AhbLine → Option PyStr) (lines : List AhbLine) : NoAbort (enhance p f lines) :=
  (noAbort_fill _ _ _).bind fun _ _ => .pure _

theorem noAbort_determineLocations (s : Sgh) (lines : List AhbLine) : NoAbort (determineLocations s lines) := by
  unfold determineLocations
  refine (noAbort_layer _ _ _).bind fun a _ => ?_
  rw [changes_eq]
  refine (NoAbort.ok _).bind fun b _ => ?_
  refine NoAbort.bind (noAbort_enhance _ _ _) fun c _ => ?_
  refine NoAbort.bind (noAbort_enhance _ _ _) fun d _ => ?_
  exact (NoAbort.foldlM (fun b a => noAbort_locStep s b a) _ _).bind fun _ _ => .pure _

/-! ## the MIG -/

theorem noAbort_stackLoop : ∀ (path : List Nat) (name : Option PyStr) (e : Xml), NoAbort (stackLoop name e path)
  | [], name, e => by rw [stackLoop]; exact .ok _
  | i :: path, name, e => by
    rw [stackLoop]
    cases e.children[i]? with
    | none => simp [NoAbort]
    | some leaf =>
      dsimp only
      split
      · simp [NoAbort]
      · exact (noAbort_stackLoop path _ _).bind fun _ _ => .pure _

theorem noAbort_migLookup (root : Xml) (loc : AhbLocation) : NoAbort (migLookup root loc) := by
  unfold migLookup
  refine NoAbort.map ?_
  unfold getEdifactStack
  refine NoAbort.bind ?_ fun a _ => (noAbort_stackLoop _ _ _).bind fun _ _ => .pure _
  cases hl : loc.layers with
  | nil =>
    unfold getElement
    rw [hl]
    simp [NoAbort]
  | cons l ls =>
    intro h
    rcases C49_errors (by rw [hl]; simp) h with h | ⟨h, _⟩ | ⟨h, _⟩ <;> cases h

theorem noAbort_toDeepAhb (root : Xml) (posStr : AhbLocation → PyStr) (flat : FlatAhb) (sgh : Sgh)
    (hvalid : ∀ l ∈ flat.lines, NoneOr NotBlank l.ahbExpression) : NoAbort (toDeepAhb (migLookup root) posStr flat sgh) := by
  intro h
  rcases (C108_to_deep_ahb_raises _ _ _ _ hvalid _).1 h with h | ⟨located, _, before, r, after, _, _, _, h⟩
  · exact noAbort_determineLocations _ _ h
  · cases h with
    | lookup _ h =>
      obtain ⟨_, h | ⟨_, x, y, rest, _, h⟩⟩ := h
      · exact noAbort_migLookup _ _ h
      · exact noAbort_migLookup _ _ h
    | element _ _ _ h =>
      obtain ⟨_, first, _, ⟨_, good, l, rest, _, _, _, ⟨_, h⟩ | ⟨_, _, h⟩⟩ | ⟨_, _, h⟩⟩ := h <;> cases h

/-! ## loading -/

/-- the exceptions of constructors -/
def TypeOrValue {α : Type} (r : PyRes α) : Prop := ∀ e, r = .error e → e = .typeError ∨ e = .valueError

theorem TypeOrValue.bind {α β : Type} {r : PyRes α} {f : α → PyRes β} (h : TypeOrValue r) (hf : ∀ a, TypeOrValue (f a)) :
    TypeOrValue (r >>= f) := by
  cases r with
  | error e => intro x hx; exact h x (by injection hx with hx; rw [hx])
  | ok a => exact hf a

theorem typeOrValue_base (disc i : Option PyStr) : TypeOrValue (DataElement.checkBase disc i) := by
  intro e h
  unfold DataElement.checkBase at h
  repeat' split at h
  all_goals cases h
  all_goals simp

theorem typeOrValue_expression (x : Option PyStr) : TypeOrValue (checkSegmentLevelExpression x) := by
  intro e h
  unfold checkSegmentLevelExpression at h
  repeat' split at h
  all_goals cases h
  all_goals simp

theorem typeOrValue_freeText (disc i inp x : Option PyStr) (t : Option DataElementDataType) :
    TypeOrValue (DataElement.newFreeText disc i inp x t) := by
  refine (typeOrValue_base disc i).bind fun a => ?_
  intro e h
  repeat' split at h
  all_goals cases h
  all_goals simp

theorem typeOrValue_valuePool (disc i inp : Option PyStr) (p : List ValuePoolEntry) (t : Option DataElementDataType) :
    TypeOrValue (DataElement.newValuePool disc i inp p t) :=
  (typeOrValue_base disc i).bind fun a e h => by cases h

theorem typeOrValue_segment (disc x : Option PyStr) (i : Option Int) (l : List DataElement) (sec sid : Option PyStr) :
    TypeOrValue (Segment.new disc x i l sec sid) := by
  refine (typeOrValue_expression x).bind fun a => ?_
  intro e h
  repeat' split at h
  all_goals cases h
  all_goals simp

theorem typeOrValue_group (disc x : Option PyStr) (i : Option Int) (l : Option (List Segment)) (gs : Option (List SegmentGroup)) :
    TypeOrValue (SegmentGroup.new disc x i l gs) :=
  (typeOrValue_expression x).bind fun a e h => by cases h

theorem typeOrValue_entry (q m x : Option PyStr) : TypeOrValue (ValuePoolEntry.new q m x) := by
  intro e h
  unfold ValuePoolEntry.new at h
  repeat' split at h
  all_goals cases h
  all_goals simp

theorem typeOrValue_meta (m : AhbMetaInformation) : TypeOrValue (AhbMetaInformation.new m) := by
  intro e h
  unfold AhbMetaInformation.new at h
  repeat' split at h
  all_goals cases h
  all_goals simp

theorem typeOrValue_line (l : AhbLine) : TypeOrValue (AhbLine.new l) := by
  intro e h
  unfold AhbLine.new at h
  repeat' split at h
  all_goals cases h
  all_goals simp

theorem typeOrValue_flat (m : AhbMetaInformation) (l : List AhbLine) : TypeOrValue (FlatAhb.new m l) := by
  unfold FlatAhb.new
  refine TypeOrValue.bind ?_ fun a e h => by cases h
  intro e h
  unfold FlatAhb.checkLines at h
  repeat' split at h
  all_goals cases h
  all_goals simp

theorem refused_kind {p : Part} {e : Exc} (h : Refused p e) : e = .typeError ∨ e = .valueError := by
  have base : ∀ {d : List (PyStr × Json)} {disc : Option PyStr} {i : PyStr}, RefusedBase d disc i e → e = .typeError ∨ e = .valueError := by
    rintro d disc i (⟨h, _⟩ | ⟨_, h⟩)
    · exact .inl h
    · exact typeOrValue_valuePool _ _ _ _ _ e h
  cases h with
  | info _ _ _ _ _ _ _ _ h => exact typeOrValue_meta _ e h
  | line => exact typeOrValue_line _ e (by assumption)
  | entry _ _ _ _ _ _ _ _ _ h => exact typeOrValue_entry _ _ _ e h
  | freeText _ _ _ _ _ _ _ _ _ _ _ _ _ h =>
    split at h
    · exact .inl h
    · exact typeOrValue_freeText _ _ _ _ _ e h
  | valuePool _ _ _ _ _ _ _ _ _ _ _ _ _ h =>
    split at h
    · exact .inl h
    · exact typeOrValue_valuePool _ _ _ _ _ e h
  | freeTextAttribute => exact base (by assumption)
  | valuePoolAttribute => exact base (by assumption)
  | segment => exact typeOrValue_segment _ _ _ _ _ _ e (by assumption)
  | group => exact typeOrValue_group _ _ _ _ _ e (by assumption)
  | flat => exact typeOrValue_flat _ _ e (by assumption)
  | number => exact .inl rfl
  | float => exact .inl rfl
  | boolean => exact .inl rfl
  | noDataElements => exact .inl rfl
  | flatIncomplete => exact .inl rfl
  | deepIncomplete => exact .inl rfl
  | noSubHierarchy => exact .inl rfl

theorem firstRefused_kind {ps : List Part} {e : Exc} (h : FirstRefused ps e) : e = .typeError ∨ e = .valueError := by
  obtain ⟨_, p, _, _, h, _⟩ := h
  exact refused_kind h

theorem flat_load_kind {j : Json} {e : Exc} (h : FlatAhb.load j = .error e) : e = .validationError ∨ e = .typeError ∨ e = .valueError := by
  by_cases he : e = .validationError
  · exact .inl he
  · exact .inr (firstRefused_kind (((C87_flat_ahb j).1 e he).1 h))

theorem deep_load_kind {j : Json} {e : Exc} (h : DeepAhb.load j = .error e) : e = .validationError ∨ e = .typeError ∨ e = .valueError := by
  by_cases he : e = .validationError
  · exact .inl he
  · exact .inr (firstRefused_kind (((C87_deep_ahb j).1 e he).1 h))

theorem sgh_load_kind {j : Json} {e : Exc} (h : Sgh.load j = .error e) : e = .validationError ∨ e = .typeError := by
  by_cases he : e = .validationError
  · exact .inl he
  · exact .inr (C87_hierarchy_only_missing j e h he).1

/-! ## JSON texts -/

theorem noAbort_scanUnits (s : PyStr) : NoAbort (scanUnits s) := by
  have hc : ∀ {n : Nat} {r : PyRes (List Nat × PyStr)}, NoAbort r → NoAbort (consUnit n r) := by
    intro n r h
    cases r with
    | error e => exact fun h' => h (by unfold consUnit at h'; injection h' with h'; rw [h'])
    | ok a => exact .ok _
  fun_induction scanUnits s <;> first | exact hc (by assumption) | simp [NoAbort]

theorem noAbort_string (s : PyStr) : NoAbort (parseJsonString s) := by
  have h := noAbort_scanUnits s
  unfold parseJsonString
  split
  · rename_i e he; rw [he] at h; exact fun h' => h (by injection h' with h'; rw [h'])
  · split <;> simp [NoAbort]

theorem noAbort_scalar (s : PyStr) : NoAbort (parseScalar s) := by
  have hu : ∀ b s, NoAbort (parseUnsigned b s) := by
    intro b s
    unfold parseUnsigned NoAbort
    repeat' split
    all_goals simp
  unfold parseScalar
  repeat' split
  all_goals first | exact hu _ _ | exact .ok _

theorem noAbort_json (n : Nat) : (∀ s, NoAbort (parseJsonValue n s)) ∧ (∀ s, NoAbort (parseJsonItems n s)) ∧
    ∀ s, NoAbort (parseJsonMembers n s) := by
  have err : ∀ {α β : Type} {r : PyRes α} {e : Exc}, NoAbort r → r = .error e → NoAbort (.error e : PyRes β) := by
    intro α β r e h he h'
    rw [he] at h
    exact h (by injection h' with h'; rw [h'])
  induction n with
  | zero => simp [parseJsonValue, parseJsonItems, parseJsonMembers, NoAbort]
  | succ n ih =>
    obtain ⟨h1, h2, h3⟩ := ih
    refine ⟨fun s => ?_, fun s => ?_, fun s => ?_⟩
    · simp only [parseJsonValue]
      repeat' split
      all_goals first
        | exact (noAbort_string _).map
        | exact (h2 _).map
        | exact (h3 _).map
        | exact noAbort_scalar _
        | simp [NoAbort]
    · simp only [parseJsonItems]
      repeat' split
      all_goals first
        | exact err (h1 _) (by assumption)
        | exact (h2 _).map
        | simp [NoAbort]
    · simp only [parseJsonMembers]
      repeat' split
      all_goals first
        | exact err (noAbort_string _) (by assumption)
        | exact err (h1 _) (by assumption)
        | exact (h3 _).map
        | simp [NoAbort]

theorem noAbort_loads (s : PyStr) : NoAbort (jsonLoads s) := by
  have h := (noAbort_json (2 * s.length + 2)).1 (skipJsonSpace s)
  unfold jsonLoads
  split
  · simp [NoAbort]
  · split
    · rename_i e he; rw [he] at h; exact fun h' => h (by injection h' with h'; rw [h'])
    · split <;> simp [NoAbort]

theorem noAbort_loadText {α : Type} {load : Json → PyRes α} (h : ∀ j, NoAbort (load j)) (s : PyStr) :
    NoAbort ((jsonLoads s).bind load) := (noAbort_loads s).bind fun j _ => h j

theorem noAbort_flat (j : Json) : NoAbort (FlatAhb.load j) := fun h => by rcases flat_load_kind h with h | h | h <;> cases h
theorem noAbort_deep (j : Json) : NoAbort (DeepAhb.load j) := fun h => by rcases deep_load_kind h with h | h | h <;> cases h
theorem noAbort_sgh (j : Json) : NoAbort (Sgh.load j) := fun h => by rcases sgh_load_kind h with h | h <;> cases h

end Verif
