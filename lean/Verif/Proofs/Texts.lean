import Verif.Spec.Texts
import Verif.Proofs.Surrogates
import Verif.Proofs.TemplatePath
import Verif.Proofs.JsonText
import Verif.Model.LocationRepr
import Verif.Spec.JsonGrammar
import Verif.Spec.SchemaLoad
/-!
# Proofs: the texts of flat and deep AHBs (C124)
-/

namespace Verif

/-! ## values whose texts have a property -/

mutual
/-- all strings and keys in the value have the property -/
def Json.AllStr (Q : PyStr → Prop) : Json → Prop
  | .str s => Q s
  | .arr l => Json.AllStrItems Q l
  | .obj d => Json.AllStrMembers Q d
  | .null => True
  | .bool _ => True
  | .num _ => True
  | .float _ => True
/-- the items -/
def Json.AllStrItems (Q : PyStr → Prop) : List Json → Prop
  | [] => True
  | j :: l => j.AllStr Q ∧ Json.AllStrItems Q l
/-- the members -/
def Json.AllStrMembers (Q : PyStr → Prop) : List (PyStr × Json) → Prop
  | [] => True
  | (k, v) :: d => Q k ∧ v.AllStr Q ∧ Json.AllStrMembers Q d
end

variable {Q : PyStr → Prop}

theorem allStrItems_iff (l : List Json) : Json.AllStrItems Q l ↔ ∀ j ∈ l, j.AllStr Q := by
  induction l with
  | nil => simp [Json.AllStrItems]
  | cons j l ih => simp [Json.AllStrItems, ih]

theorem allStrMembers_iff (d : List (PyStr × Json)) : Json.AllStrMembers Q d ↔ ∀ m ∈ d, Q m.1 ∧ m.2.AllStr Q := by
  induction d with
  | nil => simp [Json.AllStrMembers]
  | cons m d ih => obtain ⟨k, v⟩ := m; simp [Json.AllStrMembers, ih, and_assoc]

mutual
theorem allStr_sorted : ∀ j : Json, j.AllStr Q → j.sorted.AllStr Q
  | .null, _ => by rw [Json.sorted]; trivial
  | .bool b, _ => by rw [Json.sorted]; trivial
  | .num i, _ => by rw [Json.sorted]; trivial
  | .float f, _ => by rw [Json.sorted]; trivial
  | .str s, h => by rw [Json.sorted]; exact h
  | .arr l, h => by
    rw [Json.sorted, Json.AllStr]
    exact allStr_sortedItems l (by simpa only [Json.AllStr] using h)
  | .obj d, h => by
    rw [Json.AllStr] at h
    rw [Json.sorted, Json.AllStr, allStrMembers_iff]
    intro m hm
    exact (allStrMembers_iff _).1 (allStr_sortedValues d h) m ((sortedMembers_perm d).mem_iff.1 hm)
theorem allStr_sortedItems : ∀ l : List Json, Json.AllStrItems Q l → Json.AllStrItems Q (Json.sortedItems l)
  | [], _ => by rw [Json.sortedItems]; trivial
  | j :: l, h => by
    rw [Json.AllStrItems] at h
    rw [Json.sortedItems, Json.AllStrItems]
    exact ⟨allStr_sorted j h.1, allStr_sortedItems l h.2⟩
theorem allStr_sortedValues : ∀ d : List (PyStr × Json), Json.AllStrMembers Q d → Json.AllStrMembers Q (sortedValues d)
  | [], _ => trivial
  | (k, v) :: d, h => by
    rw [Json.AllStrMembers] at h
    rw [sortedValues, Json.AllStrMembers]
    exact ⟨h.1, allStr_sorted v h.2.1, allStr_sortedValues d h.2.2⟩
end

/-! ## no lone surrogate in the text of a value without lone surrogates -/

/-- no character of the text stands for a lone surrogate -/
theorem holdsLone_append {s t : PyStr} : HoldsLone (s ++ t) ↔ HoldsLone s ∨ HoldsLone t := by
  simp only [HoldsLone, List.mem_append]
  constructor
  · rintro ⟨c, h | h, hc⟩
    · exact .inl ⟨c, h, hc⟩
    · exact .inr ⟨c, h, hc⟩
  · rintro (⟨c, h, hc⟩ | ⟨c, h, hc⟩)
    · exact ⟨c, .inl h, hc⟩
    · exact ⟨c, .inr h, hc⟩

theorem holdsLone_cons {c : Char} {t : PyStr} : HoldsLone (c :: t) ↔ 0x10F800 ≤ c.toNat ∨ HoldsLone t := by
  simp [HoldsLone]

theorem not_holdsLone_nil : ¬ HoldsLone [] := by rintro ⟨c, hc, _⟩; cases hc

theorem not_holdsLone_of {s : PyStr} (h : ∀ c ∈ s, isStandIn c = false) : ¬ HoldsLone s := by
  rintro ⟨c, hc, h'⟩
  have := h c hc
  unfold isStandIn at this
  exact absurd h' (of_decide_eq_false this)

theorem plain_quote {s : PyStr} (h : ¬ HoldsLone s) : ¬ HoldsLone (jsonQuote false s) := by
  rintro ⟨c, hc, h'⟩
  exact h ⟨c, holdsLone_escape hc h', h'⟩

theorem plain_newline (st : JsonStyle) (level : Nat) : ¬ HoldsLone (st.newline level) :=
  not_holdsLone_of fun c hc => not_standIn_of_buf (newline_chars st level c hc)

theorem plain_separator (st : JsonStyle) (level : Nat) : ¬ HoldsLone (st.separator level) :=
  not_holdsLone_of fun c hc => not_standIn_of_buf (separator_chars st level c hc)

mutual
theorem plain_render (st : JsonStyle) (hst : st.ensureAscii = false) : ∀ (level : Nat) (j : Json), j.AllStr (fun s => ¬ HoldsLone s) →
    ¬ HoldsLone (st.render level j)
  | _, .null, _ => by simp only [JsonStyle.render]; exact not_holdsLone_of (by decide)
  | _, .bool b, _ => by cases b <;> (simp only [JsonStyle.render]; exact not_holdsLone_of (by decide))
  | _, .num i, _ => by simp only [JsonStyle.render]; exact not_holdsLone_of (intToDec_noStandIn i)
  | _, .float f, _ => by simp only [JsonStyle.render]; exact not_holdsLone_of (by decide)
  | _, .str s, h => by simp only [JsonStyle.render, hst]; exact plain_quote h
  | _, .arr [], _ => by simp only [JsonStyle.render]; exact not_holdsLone_of (by decide)
  | level, .arr (j :: l), h => by
    rw [Json.AllStr, Json.AllStrItems] at h
    simp only [JsonStyle.render, holdsLone_cons, holdsLone_append, not_or]
    exact ⟨by decide, plain_newline _ _, plain_render st hst _ j h.1, plain_renderItems st hst _ l h.2, plain_newline _ _, by decide,
      not_holdsLone_nil⟩
  | _, .obj [], _ => by simp only [JsonStyle.render]; exact not_holdsLone_of (by decide)
  | level, .obj ((k, v) :: d), h => by
    rw [Json.AllStr, Json.AllStrMembers] at h
    simp only [JsonStyle.render, hst, holdsLone_cons, holdsLone_append, not_or]
    exact ⟨by decide, plain_newline _ _, plain_quote h.1, by decide, by decide, plain_render st hst _ v h.2.1,
      plain_renderMembers st hst _ d h.2.2, plain_newline _ _, by decide, not_holdsLone_nil⟩
theorem plain_renderItems (st : JsonStyle) (hst : st.ensureAscii = false) : ∀ (level : Nat) (l : List Json),
    Json.AllStrItems (fun s => ¬ HoldsLone s) l → ¬ HoldsLone (st.renderItems level l)
  | _, [], _ => by simp only [JsonStyle.renderItems]; exact not_holdsLone_nil
  | level, j :: l, h => by
    rw [Json.AllStrItems] at h
    simp only [JsonStyle.renderItems, holdsLone_append, not_or]
    exact ⟨plain_separator _ _, plain_render st hst _ j h.1, plain_renderItems st hst _ l h.2⟩
theorem plain_renderMembers (st : JsonStyle) (hst : st.ensureAscii = false) : ∀ (level : Nat) (d : List (PyStr × Json)),
    Json.AllStrMembers (fun s => ¬ HoldsLone s) d → ¬ HoldsLone (st.renderMembers level d)
  | _, [], _ => by simp only [JsonStyle.renderMembers]; exact not_holdsLone_nil
  | level, (k, v) :: d, h => by
    rw [Json.AllStrMembers] at h
    simp only [JsonStyle.renderMembers, hst, holdsLone_cons, holdsLone_append, not_or]
    exact ⟨plain_separator _ _, plain_quote h.1, by decide, by decide, plain_render st hst _ v h.2.1, plain_renderMembers st hst _ d h.2.2⟩
end

/-! ## the texts of a dump -/

theorem allStr_dumpStr {o : Option PyStr} (h : ∀ t, o = some t → Q t) : (dumpStr o).AllStr Q := by
  cases o with
  | none => trivial
  | some t => exact h t rfl

theorem allStr_entry {e : ValuePoolEntry} (hk : ∀ k ∈ [py!"qualifier", py!"meaning", py!"ahb_expression"], Q k)
    (h1 : Q e.qualifier) (h2 : Q e.meaning) (h3 : Q e.ahbExpression) : e.dump.AllStr Q := by
  unfold ValuePoolEntry.dump
  simp only [Json.AllStr, Json.AllStrMembers, and_true]
  exact ⟨hk _ (by simp), h1, hk _ (by simp), h2, hk _ (by simp), h3⟩

/-- the keys and constants in the dump of a deep AHB -/
def mausKeys : List PyStr :=
  [py!"meta", py!"lines", py!"pruefidentifikator", py!"maus_version", py!"description", py!"direction", py!"discriminator",
   py!"ahb_expression", py!"segments", py!"segment_groups", py!"data_elements", py!"section_name", py!"segment_id", py!"data_element_id",
   py!"entered_input", py!"value_type", py!"value_pool", py!"qualifier", py!"meaning", py!"TEXT", py!"DATETIME", py!"VALUE_POOL"]

section
variable (hk : ∀ k ∈ mausKeys, Q k)
include hk

theorem allStr_dataElement {de : DataElement} (h1 : ∀ t, de.discriminator = some t → Q t) (h2 : Q de.dataElementId)
    (h3 : ∀ t, de.enteredInput = some t → Q t) (h4 : ∀ t, de.kind = .freeText t → Q t)
    (h5 : ∀ es e, de.kind = .valuePool es → e ∈ es → Q e.qualifier ∧ Q e.meaning ∧ Q e.ahbExpression) : de.dump.AllStr Q := by
  unfold DataElement.dump DataElement.dumpBase
  rw [Json.AllStr, allStrMembers_iff]
  intro m hm
  simp only [List.mem_append, List.mem_cons, List.not_mem_nil, or_false] at hm
  rcases hm with (((rfl | rfl) | hm) | rfl) | hm
  · exact ⟨hk _ (by dsimp only; decide), allStr_dumpStr h1⟩
  · exact ⟨hk _ (by dsimp only; decide), h2⟩
  · cases hi : de.enteredInput with
    | none => rw [hi] at hm; cases hm
    | some s =>
      rw [hi] at hm
      simp only [dumpInput, List.mem_singleton] at hm
      subst hm
      exact ⟨hk _ (by dsimp only; decide), h3 s hi⟩
  · refine ⟨hk _ (by dsimp only; decide), ?_⟩
    dsimp only
    cases de.valueType with
    | none => trivial
    | some t => cases t <;> exact hk _ (by decide)
  · cases hkind : de.kind with
    | freeText e =>
      rw [hkind] at hm
      simp only [List.mem_singleton] at hm
      subst hm
      exact ⟨hk _ (by dsimp only; decide), h4 e hkind⟩
    | valuePool p =>
      rw [hkind] at hm
      simp only [List.mem_singleton] at hm
      subst hm
      refine ⟨hk _ (by dsimp only; decide), ?_⟩
      dsimp only
      rw [Json.AllStr, allStrItems_iff]
      intro j hj
      obtain ⟨e, he, rfl⟩ := List.mem_map.1 hj
      obtain ⟨a, b, c⟩ := h5 p e hkind he
      refine allStr_entry (fun k hk' => hk k ?_) a b c
      revert k hk'
      decide

theorem allStr_segment {s : Segment} (h1 : ∀ t, s.discriminator = some t → Q t) (h2 : Q s.ahbExpression)
    (h3 : ∀ de ∈ s.dataElements, de.dump.AllStr Q) (h4 : ∀ t, s.sectionName = some t → Q t) (h5 : ∀ t, s.segmentId = some t → Q t) :
    s.dump.AllStr Q := by
  unfold Segment.dump
  simp only [Json.AllStr, Json.AllStrMembers, and_true, allStrItems_iff]
  refine ⟨hk _ (by decide), allStr_dumpStr h1, hk _ (by decide), h2, hk _ (by decide), ?_, hk _ (by decide), allStr_dumpStr h4,
    hk _ (by decide), allStr_dumpStr h5⟩
  intro j hj
  obtain ⟨de, hde, rfl⟩ := List.mem_map.1 hj
  exact h3 de hde

mutual
theorem allStr_group : ∀ g : SegmentGroup, (∀ x, GroupOccurs [g] x → (∀ t, x.discriminator = some t → Q t) ∧ Q x.ahbExpression ∧
    ∀ s ∈ x.ownSegments, s.dump.AllStr Q) → g.dump.AllStr Q
  | .mk d e i s gs, h => by
    have h0 := h (.mk d e i s gs) (groupOccurs_line (by simp))
    have h1 := allStr_groupOpt gs (fun l hl x hx => h x (by
      subst hl
      obtain ⟨a, ha⟩ := hx
      exact ⟨0 :: a, by
        cases a with
        | nil => simp [groupAt?] at ha
        | cons k a => simpa [groupAt?, SegmentGroup.at?, SegmentGroup.children, SegmentGroup.segmentGroups] using ha⟩))
    simp only [SegmentGroup.dump, Json.AllStr, Json.AllStrMembers, and_true]
    refine ⟨hk _ (by decide), allStr_dumpStr h0.1, hk _ (by decide), h0.2.1, hk _ (by decide), ?_, hk _ (by decide), h1⟩
    cases s with
    | none => trivial
    | some l =>
      simp only [dumpSegments, Json.AllStr, allStrItems_iff]
      intro j hj
      obtain ⟨s, hs, rfl⟩ := List.mem_map.1 hj
      exact h0.2.2 s hs
theorem allStr_groupOpt : ∀ o : Option (List SegmentGroup), (∀ l, o = some l → ∀ x, GroupOccurs l x →
    (∀ t, x.discriminator = some t → Q t) ∧ Q x.ahbExpression ∧ ∀ s ∈ x.ownSegments, s.dump.AllStr Q) → (SegmentGroup.dumpOpt o).AllStr Q
  | none, _ => by rw [SegmentGroup.dumpOpt]; trivial
  | some l, h => by
    rw [SegmentGroup.dumpOpt, Json.AllStr]
    exact allStr_groupList l (h l rfl)
theorem allStr_groupList : ∀ l : List SegmentGroup, (∀ x, GroupOccurs l x →
    (∀ t, x.discriminator = some t → Q t) ∧ Q x.ahbExpression ∧ ∀ s ∈ x.ownSegments, s.dump.AllStr Q) →
    Json.AllStrItems Q (SegmentGroup.dumpList l)
  | [], _ => by rw [SegmentGroup.dumpList]; trivial
  | g :: l, h => by
    rw [SegmentGroup.dumpList, Json.AllStrItems]
    refine ⟨allStr_group g fun x hx => h x ?_, allStr_groupList l fun x hx => h x ?_⟩
    · obtain ⟨a, ha⟩ := hx
      cases a with
      | nil => simp [groupAt?] at ha
      | cons k a =>
        cases k with
        | zero => exact ⟨0 :: a, by simpa [groupAt?] using ha⟩
        | succ k => simp [groupAt?] at ha
    · obtain ⟨a, ha⟩ := hx
      cases a with
      | nil => simp [groupAt?] at ha
      | cons k a => exact ⟨(k + 1) :: a, by simpa [groupAt?] using ha⟩
end
end

/-! ## the created segments -/

theorem created_segment_line {reader : MigLookup} {posStr : AhbLocation → PyStr} {r : Run} {used : List PyStr} {d : Option PyStr} {e : PyStr}
    {i : Option Int} {n s : Option PyStr} (h : DocItem.segment d e i n s ∈ r.created reader posStr used) :
    (∃ first, r.lines.head? = some first ∧ i = first.index ∧ n = first.sectionName) ∧ s = none ∧
      ∃ l ∈ r.lines, l.ahbExpression = some e ∧ e ≠ [] := by
  unfold Run.created at h
  split at h
  · cases h
  · split at h
    · unfold Run.createdDataElement at h
      split at h
      · split at h <;> simp at h
      · cases h
    · rcases List.mem_append.1 h with h | h
      · unfold Run.openedGroup at h
        split at h <;> simp at h
      · unfold Run.createdSegment at h
        split at h
        · rename_i e' first he hf
          simp only [Option.toList_some, List.mem_singleton, DocItem.segment.injEq] at h
          obtain ⟨_, rfl, rfl, rfl, rfl⟩ := h
          refine ⟨⟨first, hf, rfl, rfl⟩, rfl, ?_⟩
          unfold Run.firstExpression at he
          obtain ⟨l, hl, hx⟩ := List.exists_of_findSome?_eq_some he
          rw [Option.filter_eq_some_iff] at hx
          exact ⟨l, hl, hx.1, by simpa using hx.2⟩
        · simp at h

theorem plain_trim {s : PyStr} (h : ¬ HoldsLone s) : ¬ HoldsLone (trim s) := by
  rintro ⟨c, hc, h'⟩
  refine h ⟨c, ?_, h'⟩
  unfold trim at hc
  rw [List.mem_reverse] at hc
  have h1 := (List.dropWhile_suffix _).mem hc
  rw [List.mem_reverse] at h1
  exact (List.dropWhile_suffix _).mem h1

theorem plain_templatePath {steps : List (PyStr × Xml)} (h : ∀ s ∈ steps, ¬ HoldsLone s.1) : ¬ HoldsLone (templatePath steps) := by
  unfold templatePath
  rw [holdsLone_append, not_or]
  refine ⟨not_holdsLone_of (by decide), ?_⟩
  rintro ⟨c, hc, h'⟩
  obtain ⟨s, hs, hc⟩ := List.mem_flatMap.1 hc
  have hx : HoldsLone _ := ⟨c, hc, h'⟩
  rw [holdsLone_append, holdsLone_append, holdsLone_append] at hx
  rcases hx with ((hx | hx) | hx) | hx
  · exact not_holdsLone_of (by decide) hx
  · exact h s hs hx
  · exact not_holdsLone_of (by decide) hx
  · split at hx
    · exact not_holdsLone_of (by decide) hx
    · exact not_holdsLone_nil hx

theorem plain_leadsTo {root : Xml} (hr : PlainTemplate root) {d : PyStr} {path : List Nat} {es : List Xml} (h : LeadsTo root d path es) :
    ¬ HoldsLone d := by
  obtain ⟨h1, names, h2, h3, rfl⟩ := h
  apply plain_templatePath
  intro s hs
  obtain ⟨i, hi⟩ := List.getElem?_of_mem hs
  rw [List.getElem?_zip_eq_some] at hi
  obtain ⟨before, named, after, h4, h5, _⟩ := h3 i s.2 s.1 hi.2 hi.1
  have hm : named ∈ es.take i ++ [s.2] := by rw [h4]; simp
  refine hr path es h1 named ?_ _ h5
  rcases List.mem_append.1 hm with hm | hm
  · exact List.mem_of_mem_take hm
  · rw [List.mem_singleton] at hm
    rw [hm]
    exact List.mem_of_getElem? hi.2

theorem allStr_meta {m : AhbMetaInformation} (hk : ∀ k ∈ mausKeys, Q k) (h1 : Q m.pruefidentifikator) (h2 : ∀ t, m.mausVersion = some t → Q t)
    (h3 : ∀ t, m.description = some t → Q t) (h4 : ∀ t, m.direction = some t → Q t) : m.dump.AllStr Q := by
  unfold AhbMetaInformation.dump
  simp only [Json.AllStr, Json.AllStrMembers, and_true]
  exact ⟨hk _ (by decide), h1, hk _ (by decide), allStr_dumpStr h2, hk _ (by decide), allStr_dumpStr h3, hk _ (by decide), allStr_dumpStr h4⟩

/-- the strings of the dump of a deep AHB are its texts and the keys -/
theorem allStr_deepAhb {a : DeepAhb} (hk : ∀ k ∈ mausKeys, Q k) (h : ∀ t, MausText a t → Q t) : a.dump.AllStr Q := by
  unfold DeepAhb.dump
  simp only [Json.AllStr, Json.AllStrMembers, and_true]
  refine ⟨hk _ (by decide), allStr_meta hk (h _ .pruefidentifikator) (fun t ht => h t (.version ht)) (fun t ht => h t (.description ht))
    (fun t ht => h t (.direction ht)), hk _ (by decide), ?_⟩
  have := allStr_groupList hk a.lines fun x hx => ⟨fun t ht => h t (.groupDiscriminator hx ht), h _ (.groupExpression hx), fun s hs => by
    have hso : SegmentOccurs a.lines s := ⟨x, hx, hs⟩
    refine allStr_segment hk (fun t ht => h t (.segmentDiscriminator hso ht)) (h _ (.segmentExpression hso)) (fun de hde => ?_)
      (fun t ht => h t (.sectionName hso ht)) (fun t ht => h t (.segmentId hso ht))
    have hdo : DataElementOccurs a.lines de := ⟨s, hso, hde⟩
    exact allStr_dataElement hk (fun t ht => h t (.elementDiscriminator hdo ht)) (h _ (.elementId hdo))
      (fun t ht => h t (.enteredInput hdo ht)) (fun t ht => h t (.freeText hdo ht))
      (fun es e hes he => ⟨h _ (.qualifier hdo hes he), h _ (.meaning hdo hes he), h _ (.entryExpression hdo hes he)⟩)⟩
  rw [SegmentGroup.dumpList_eq] at this
  exact this

theorem plain_mausText {a : DeepAhb} (h : ∀ t, MausText a t → ¬ HoldsLone t) : ¬ HoldsLone (mausText a) := by
  unfold mausText jsonDumps
  dsimp only
  rw [if_pos rfl]
  refine plain_render _ rfl _ _ (allStr_sorted _ (allStr_deepAhb (fun k hk => ?_) h))
  refine not_holdsLone_of ?_
  revert k
  decide

/-! ## printed locations -/

theorem plain_hexDigits (k n : Nat) : ¬ HoldsLone (hexDigits k n) := by
  induction k generalizing n with
  | zero => exact not_holdsLone_nil
  | succ k ih =>
    unfold hexDigits
    rw [holdsLone_append, not_or]
    refine ⟨ih _, not_holdsLone_of fun c hc => ?_⟩
    rw [List.mem_singleton] at hc
    subst hc
    have h : n % 16 < 16 := Nat.mod_lt _ (by decide)
    generalize n % 16 = m at h
    revert m
    decide

theorem plain_reprStr {printable : Char → Bool} (hp : ∀ c : Char, 0x10F800 ≤ c.toNat → printable c = false) (s : PyStr) :
    ¬ HoldsLone (reprStr printable s) := by
  have hq : ¬ 0x10F800 ≤ (reprQuote s).toNat := by unfold reprQuote; split <;> decide
  unfold reprStr
  rw [holdsLone_cons, holdsLone_append, holdsLone_cons]
  rintro (h | ⟨c, hc, h⟩ | h | h)
  · exact hq h
  · obtain ⟨d, _, hc⟩ := List.mem_flatMap.1 hc
    have hx : HoldsLone (reprChar printable (reprQuote s) d) := ⟨c, hc, h⟩
    have hd : (0x10F800 ≤ '\\'.toNat) = False := by decide
    have hd2 : (0x10F800 ≤ 'x'.toNat) = False := by decide
    have hd3 : (0x10F800 ≤ 'u'.toNat) = False := by decide
    have hd4 : (0x10F800 ≤ 'U'.toNat) = False := by decide
    unfold reprChar at hx
    split at hx
    · rename_i hor
      simp only [holdsLone_cons, hd, false_or, not_holdsLone_nil, or_false] at hx
      rcases hor with rfl | rfl
      · exact hq hx
      · rw [hd] at hx; exact hx
    split at hx
    · exact not_holdsLone_of (by decide) hx
    split at hx
    · exact not_holdsLone_of (by decide) hx
    split at hx
    · exact not_holdsLone_of (by decide) hx
    split at hx
    · simp only [holdsLone_cons, hd, hd2, false_or, plain_hexDigits] at hx
    split at hx
    · rename_i hor
      simp only [holdsLone_cons, not_holdsLone_nil, or_false] at hx
      rcases hor with hor | hor
      · omega
      · rw [hp d hx] at hor; cases hor
    split at hx
    · simp only [holdsLone_cons, hd, hd2, false_or, plain_hexDigits] at hx
    split at hx
    · simp only [holdsLone_cons, hd, hd3, false_or, plain_hexDigits] at hx
    · simp only [holdsLone_cons, hd, hd4, false_or, plain_hexDigits] at hx
  · exact hq h
  · exact not_holdsLone_nil h

theorem plain_reprOptStr {printable : Char → Bool} (hp : ∀ c : Char, 0x10F800 ≤ c.toNat → printable c = false) (o : Option PyStr) :
    ¬ HoldsLone (reprOptStr printable o) := by
  cases o with
  | none => unfold reprOptStr; dsimp only; exact not_holdsLone_of (by decide)
  | some s => exact plain_reprStr hp s

theorem plain_reprLayer {printable : Char → Bool} (hp : ∀ c : Char, 0x10F800 ≤ c.toNat → printable c = false) (l : AhbLocationLayer) :
    ¬ HoldsLone (l.repr printable) := by
  unfold AhbLocationLayer.repr
  simp only [holdsLone_append, not_or]
  exact ⟨⟨⟨⟨⟨⟨not_holdsLone_of (by decide), plain_reprOptStr hp _⟩, not_holdsLone_of (by decide)⟩, plain_reprStr hp _⟩,
    not_holdsLone_of (by decide)⟩, plain_reprOptStr hp _⟩, not_holdsLone_of (by decide)⟩

theorem plain_str {printable : Char → Bool} (hp : ∀ c : Char, 0x10F800 ≤ c.toNat → printable c = false) (loc : AhbLocation) :
    ¬ HoldsLone (loc.str printable) := by
  unfold AhbLocation.str
  simp only [holdsLone_append, not_or]
  refine ⟨⟨⟨⟨⟨⟨⟨⟨?_, ?_⟩, not_holdsLone_of (by decide)⟩, plain_reprOptStr hp _⟩, not_holdsLone_of (by decide)⟩, plain_reprOptStr hp _⟩,
    not_holdsLone_of (by decide)⟩, plain_reprOptStr hp _⟩, not_holdsLone_of (by decide)⟩
  · split <;> exact not_holdsLone_of (by decide)
  · cases loc.layers with
    | nil => unfold reprLayers; dsimp only; exact not_holdsLone_of (by decide)
    | cons l ls =>
      unfold reprLayers
      simp only [holdsLone_append, not_or]
      refine ⟨⟨⟨not_holdsLone_of (by decide), plain_reprLayer hp l⟩, ?_⟩, not_holdsLone_of (by decide)⟩
      rintro ⟨c, hc, h⟩
      obtain ⟨x, _, hc⟩ := List.mem_flatMap.1 hc
      rcases holdsLone_append.1 ⟨c, hc, h⟩ with h | h
      · exact not_holdsLone_of (by decide) h
      · exact plain_reprLayer hp x h

/-! ## a check for templates -/

mutual
/-- no attribute in the tree holds a lone surrogate -/
def Xml.plainAttribs : Xml → Bool
  | .elem _ a _ c => a.all (fun p => p.2.all fun x => !isStandIn x) && Xml.plainAttribsAll c
/-- for all children -/
def Xml.plainAttribsAll : List Xml → Bool
  | [] => true
  | e :: l => e.plainAttribs && Xml.plainAttribsAll l
end

theorem plainAttribsAll_mem {l : List Xml} (h : Xml.plainAttribsAll l = true) : ∀ e ∈ l, e.plainAttribs = true := by
  induction l with
  | nil => intro e he; cases he
  | cons a l ih =>
    rw [Xml.plainAttribsAll, Bool.and_eq_true] at h
    intro e he
    rcases List.mem_cons.1 he with rfl | he
    · exact h.1
    · exact ih h.2 e he

theorem dictGet_mem_text {k v : PyStr} {d : List (PyStr × PyStr)} (h : dictGet k d = some v) : (k, v) ∈ d := by
  induction d with
  | nil => cases h
  | cons x d ih =>
    obtain ⟨k', v'⟩ := x
    rw [dictGet] at h
    split at h
    · rename_i hk
      cases h
      rw [hk]
      simp
    · exact List.mem_cons_of_mem _ (ih h)

theorem plainTemplate_of {root : Xml} (h : root.plainAttribs = true) : PlainTemplate root := by
  intro path
  induction path generalizing root with
  | nil => intro es hl e he; cases hl; cases he
  | cons i path ih =>
    intro es hl e he n hn
    rw [lineage] at hl
    split at hl
    · cases hl
    · rename_i c hc
      have hcp : c.plainAttribs = true := by
        cases root with
        | elem t a x ch =>
          rw [Xml.plainAttribs, Bool.and_eq_true] at h
          exact plainAttribsAll_mem h.2 c (List.mem_of_getElem? hc)
      cases hl' : lineage c path with
      | none => rw [hl'] at hl; cases hl
      | some l =>
        rw [hl'] at hl
        cases hl
        rcases List.mem_cons.1 he with rfl | he
        · have hm : ∃ k, (k, n) ∈ e.attrib := by
            rcases hn with ⟨_, h | ⟨_, h | ⟨_, h⟩⟩⟩ | ⟨_, h | ⟨_, h | ⟨_, h⟩⟩⟩ <;> exact ⟨_, dictGet_mem_text h⟩
          obtain ⟨k, hm⟩ := hm
          cases e with
          | elem t a x ch =>
            rw [Xml.plainAttribs, Bool.and_eq_true, List.all_eq_true] at hcp
            have := List.all_eq_true.1 (hcp.1 (k, n) hm)
            exact not_holdsLone_of fun c hc => by simpa using this c hc
        · exact ih hcp l hl' e he n hn

end Verif
