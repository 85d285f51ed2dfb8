import Verif.Proofs.MigExact
import Verif.Props.MigXml
/-!
# MIG lookups: the exact outcome for every document with one message class (C111)
-/

namespace Verif

section
variable {root msg : Xml} {m : Nat} (hns : InNoNamespace root) (hm : OnlyChild (IsClass py!"/") root m)
  (hc : root.children[m]? = some msg) (loc : AhbLocation) (hne : loc.layers ≠ [])
include hns hm hc hne

/-- **C111 (IndexError)** `get_element` raises an `IndexError` exactly if the lookup stumbles over an attribute that cannot be read. -/
theorem C111_indexError : getElement root loc = .error .indexError ↔ LookupCrash msg loc := getElement_indexError hns hm hc hne

/-- **C111 (result)** `get_element` returns the element at `path` exactly if it is the one which is singled out and the lookup does not
stumble before. -/
theorem C111_returns (path : List Nat) (e : Xml) :
    getElement root loc = .ok ⟨m :: path, e⟩ ↔ Found msg loc path e ∧ ¬ LookupCrash msg loc := by
  constructor
  · intro h
    refine ⟨?_, fun hcr => ?_⟩
    · obtain ⟨p, hp, hf⟩ := getElement_found hm hc h
      cases hp
      exact hf
    · rw [(C111_indexError hns hm hc loc hne).2 hcr] at h
      cases h
  · rintro ⟨hf, hcr⟩
    cases hr : getElement root loc with
    | ok n =>
      obtain ⟨p, hp, hf'⟩ := getElement_found hm hc hr
      obtain ⟨rfl, rfl⟩ := found_unique hf hf'
      rw [← hp]
    | error x =>
      exfalso
      rcases C49_errors hne hr with rfl | ⟨rfl, _⟩ | ⟨_, h⟩
      · have hmsg := message_denotes hm hc
        obtain ⟨layer, p1, class_, hl, hw, hf⟩ := hf
        rcases (getElement_error_parts hns hne).1 hr with h | ⟨final, cands, h1, h⟩
        · rcases walk_layerLoop_any root _ _ _ hmsg [] hw with ⟨r, h'⟩ | h' <;> rw [h] at h' <;> cases h'
        · obtain ⟨n1, hd1, hc1, p1', hp1, hw1⟩ := layerLoop_walk root _ _ _ hmsg _ h1
          obtain ⟨rfl, rfl⟩ := walk_unique hw hw1
          rw [hl] at h
          rcases h with h | ⟨final', cands', h2, h⟩
          · cases segment_no_valueError h
          · obtain ⟨n2, p2', hd2, hp2, hw2, hcs⟩ := segment_walk hd1 h2
            rcases hf with ⟨hd, _, _, hno⟩ | ⟨d, p2, seg, i, hd, hs, hfa, _, _⟩
            · rw [hd] at h
              rcases h with h | ⟨r, h3, h⟩
              · cases h
              · cases h3
                rcases hcs with ⟨h4, _⟩ | ⟨_, h4⟩
                · rw [h4, hc1 hne] at h
                  cases h
                · exact hno h4
            · obtain ⟨rfl, rfl⟩ := segmentWalk_unique hs hw2
              rw [hd] at h
              rcases h with h | ⟨r, h3, h⟩
              · exact field_exists_any hd2 cands' hfa h
              · obtain ⟨j, c, rfl, _, _⟩ := field_walk hd2 h3
                cases h
      · exact hcr ((C111_indexError hns hm hc loc hne).1 hr)
      · exact h hns

/-- **C111 (ValueError)** `get_element` raises a `ValueError` exactly if no element is singled out and the lookup does not stumble. -/
theorem C111_valueError : getElement root loc = .error .valueError ↔ ¬ LookupCrash msg loc ∧ ¬ ∃ path e, Found msg loc path e := by
  constructor
  · intro h
    have hcr : ¬ LookupCrash msg loc := fun hcr => by rw [(C111_indexError hns hm hc loc hne).2 hcr] at h; cases h
    refine ⟨hcr, ?_⟩
    rintro ⟨path, e, hf⟩
    rw [(C111_returns hns hm hc loc hne path e).2 ⟨hf, hcr⟩] at h
    cases h
  · rintro ⟨hcr, hno⟩
    cases hr : getElement root loc with
    | ok n =>
      obtain ⟨p, _, hf⟩ := getElement_found hm hc hr
      exact absurd ⟨p, _, hf⟩ hno
    | error x =>
      rcases C49_errors hne hr with rfl | ⟨rfl, _⟩ | ⟨_, h⟩
      · rfl
      · exact absurd ((C111_indexError hns hm hc loc hne).1 hr) hcr
      · exact absurd hns h

end

/-- **C111 (no message)** in a document without message class every lookup raises a `ValueError`. -/
theorem C111_no_message {root : Xml} (hns : InNoNamespace root) (hno : ∀ c ∈ root.children, ¬ IsClass py!"/" c) (loc : AhbLocation)
    (hne : loc.layers ≠ []) : getElement root loc = .error .valueError := by
  have h0 : xpath root [classStep py!"/"] = [] := by
    have h0 : Denotes root [] ⟨[], root⟩ := rfl
    have := denotes_query h0 (classStep py!"/")
    rw [eval_all rfl] at this
    rw [show [classStep py!"/"] = [] ++ [classStep py!"/"] from rfl, this, List.filter_eq_nil_iff]
    intro c hc hm
    obtain ⟨i, ch, h1, rfl⟩ := XNode.mem_children.1 hc
    exact hno ch (List.mem_of_getElem? h1) (matches_iff.1 hm)
  rw [getElement_error_parts hns hne]
  refine .inl ?_
  cases hl : loc.layers with
  | nil => exact absurd hl hne
  | cons l ls =>
    rw [layerLoop, xpath_snoc, h0]
    rfl

/-! ## examples -/

/-- a MIG with the given elements in its only message -/
def exMessage (children : List Xml) : Xml :=
  .elem py!"UTILMD" [] none [xClass [(py!"ref", py!"/")] [xClass [(py!"ref", py!"UNH")] children]]

/-- such a MIG meets the hypotheses -/
theorem exMessage_ok (children : List Xml) : InNoNamespace (exMessage children) ∧ OnlyChild (IsClass py!"/") (exMessage children) 0 ∧
    (exMessage children).children[0]? = some (xClass [(py!"ref", py!"/")] [xClass [(py!"ref", py!"UNH")] children]) := by
  refine ⟨by show '{' ∉ py!"UTILMD"; decide, ⟨⟨_, rfl, rfl, rfl⟩, ?_⟩, rfl⟩
  intro j d hj _
  cases j with
  | zero => rfl
  | succ j => simp [exMessage, Xml.children] at hj

/-- a group SG8 with the given key -/
def exGroup (key : PyStr) : Xml := xClass [(py!"ref", py!"SG8"), (py!"key", key)] []

/-- the group SG8 with the opening qualifier Z46 -/
def exCrashLoc : AhbLocation := ⟨[⟨none, py!"UNH", none⟩, ⟨some py!"SG8", py!"SEQ", some py!"Z46"⟩], none, none, none, false⟩

/-- an unreadable key of a later group is an `IndexError` although the group that is looked for comes first -/
example : LookupCrash (xClass [(py!"ref", py!"/")] [xClass [(py!"ref", py!"UNH")] [exGroup py!"SEQ:1:0[1:0=Z46]", exGroup py!"SEQ:1:0[1:0=Z45|]"]])
    exCrashLoc :=
  let h := exMessage_ok [exGroup py!"SEQ:1:0[1:0=Z46]", exGroup py!"SEQ:1:0[1:0=Z45|]"]
  (C111_indexError h.1 h.2.1 h.2.2 exCrashLoc (by decide)).1 (error_of_map (f := (·.path)) (by decide +kernel))

/-- an unreadable key does no harm if the group is the only one -/
example : ∃ e, Found (xClass [(py!"ref", py!"/")] [xClass [(py!"ref", py!"UNH")] [exGroup py!"SEQ:1:0[1:0=Z45|]"]]) exCrashLoc [0, 0] e ∧
    ¬ LookupCrash (xClass [(py!"ref", py!"/")] [xClass [(py!"ref", py!"UNH")] [exGroup py!"SEQ:1:0[1:0=Z45|]"]]) exCrashLoc := by
  obtain ⟨n, hn, hp⟩ := ok_of_map (r := getElement (exMessage [exGroup py!"SEQ:1:0[1:0=Z45|]"]) exCrashLoc) (f := (·.path))
    (y := [0, 0, 0]) (by decide +kernel)
  have h := exMessage_ok [exGroup py!"SEQ:1:0[1:0=Z45|]"]
  obtain ⟨p, e⟩ := n
  cases hp
  exact ⟨e, (C111_returns h.1 h.2.1 h.2.2 exCrashLoc (by decide) [0, 0] e).1 hn⟩

/-- a field 2380 with the given reference -/
def exDate (ref : PyStr) : Xml := xField [(py!"meta.id", py!"2380"), (py!"ref", ref)]

/-- the field 2380 with the qualifier 92 -/
def exDateLoc : AhbLocation := ⟨[⟨none, py!"UNH", none⟩], some py!"DTM", some py!"2380", some py!"92", false⟩

/-- two fields with the qualifier in front of an unreadable one: a `ValueError` -/
example :
    let fields := [exDate py!"DTM:1:1[1:0=92]", exDate py!"DTM:1:1[1:0=92]", exDate py!"DTM:1:1[1:0=93|]"]
    ¬ LookupCrash (xClass [(py!"ref", py!"/")] [xClass [(py!"ref", py!"UNH")] fields]) exDateLoc ∧
    ¬ ∃ path e, Found (xClass [(py!"ref", py!"/")] [xClass [(py!"ref", py!"UNH")] fields]) exDateLoc path e :=
  let h := exMessage_ok [exDate py!"DTM:1:1[1:0=92]", exDate py!"DTM:1:1[1:0=92]", exDate py!"DTM:1:1[1:0=93|]"]
  (C111_valueError h.1 h.2.1 h.2.2 exDateLoc (by decide)).1 (error_of_map (f := (·.path)) (by decide +kernel))

/-- one field with the qualifier in front of an unreadable one: an `IndexError` -/
example : LookupCrash (xClass [(py!"ref", py!"/")] [xClass [(py!"ref", py!"UNH")]
    [exDate py!"DTM:1:1[1:0=92]", exDate py!"DTM:1:1[1:0=93|]"]]) exDateLoc :=
  let h := exMessage_ok [exDate py!"DTM:1:1[1:0=92]", exDate py!"DTM:1:1[1:0=93|]"]
  (C111_indexError h.1 h.2.1 h.2.2 exDateLoc (by decide)).1 (error_of_map (f := (·.path)) (by decide +kernel))

end Verif
