import Verif.Props.UniqueFields
import Verif.Props.MigExact
import Verif.Proofs.MigSeveral
/-!
# C111: documents with several message classes
-/

namespace Verif

/-- the class of the message or group at the first step of a walk fits the layer -/
theorem walk_fit {parent e : Xml} {l : AhbLocationLayer} {ls : List AhbLocationLayer} {p : List Nat} (h : LayerWalk parent (l :: ls) p e) :
    ∃ i rest child, p = i :: rest ∧ parent.children[i]? = some child ∧ fitB parent l child = true := by
  cases h with
  | cons hc hi _ => exact ⟨_, _, _, rfl, hc, fitB_of hc hi⟩

/-- two documents; the first one has a message for `A`, the second one has messages for `B` and `C`, of which the one for `B` has a reference -/
def exSeveralMessages : Xml :=
  .elem py!"UTILMD" [] none
    [xClass [(py!"name", py!"Eins"), (py!"ref", py!"/")]
      [xClass [(py!"name", py!"A"), (py!"ref", py!"UNH"), (py!"key", py!"UNH:2:0[1:0=A]")] []],
     xClass [(py!"name", py!"Zwei"), (py!"ref", py!"/")]
      [xClass [(py!"name", py!"B"), (py!"ref", py!"UNH"), (py!"key", py!"UNH:2:0[1:0=B]")]
        [xField [(py!"name", py!"Referenz"), (py!"ref", py!"UNH:1:0"), (py!"meta.id", py!"0062")]],
       xClass [(py!"name", py!"C"), (py!"ref", py!"UNH"), (py!"key", py!"UNH:2:0[1:0=C]")] []]]

/-- the reference of the message with the opening qualifier `A` -/
def exLocationA : AhbLocation := { layers := [⟨none, py!"UNH", some py!"A"⟩], segmentCode := some py!"UNH", dataElementId := some py!"0062" }

/-- **C111 (several messages)** the restriction to documents with one message class is necessary: in a document with several message classes
`get_element` may return an element which is not singled out below its message class, here a field of the message with the qualifier `B` for a
location with the opening qualifier `A`. -/
theorem C111_several_messages : ∃ (root : Xml) (loc : AhbLocation) (m : Nat) (path : List Nat) (msg e : Xml), InNoNamespace root ∧ loc.layers ≠ [] ∧
    root.children[m]? = some msg ∧ IsClass py!"/" msg ∧ getElement root loc = .ok ⟨m :: path, e⟩ ∧ ¬ Found msg loc path e ∧
    ∀ class_, msg.children[path.headD 0]? = some class_ → Mentions py!"key" (some py!"B") class_ ∧
      ∀ layer ∈ loc.layers, layer.openingQualifier = some py!"A" := by
  obtain ⟨⟨p, e⟩, hn, hp⟩ := ok_of_map (r := getElement exSeveralMessages exLocationA) (f := (·.path)) (y := [1, 0, 0]) (by decide +kernel)
  cases hp
  refine ⟨exSeveralMessages, exLocationA, 1, [0, 0], _, e, ?_, by simp [exLocationA], rfl, ?_, hn, ?_, ?_⟩
  · show '{' ∉ py!"UTILMD"; decide
  · exact ⟨rfl, by decide +kernel⟩
  · rintro ⟨layer, p1, class_, _, hw, hr⟩
    obtain ⟨i, rest, child, rfl, hc, hf⟩ := walk_fit hw
    have hi : i = 0 := by
      rcases hr with ⟨_, h, _⟩ | ⟨d, p2, seg, j, _, _, _, _, h⟩
      · exact (List.cons.inj h).1.symm
      · exact (List.cons.inj h).1.symm
    subst hi
    cases hc
    revert hf
    decide +kernel
  · rintro class_ hc
    cases hc
    refine ⟨(hasQualifier_true (n := ⟨[], _⟩)).1 (by decide +kernel), ?_⟩
    intro layer hl
    rw [List.mem_singleton.1 hl]

/-- **C111 (other messages)** other message classes do no harm if none of their classes has the `ref` of the first layer: the outcome is
the one described for the message class `msg`. -/
theorem C111_other_messages {root msg : Xml} {m : Nat} (hns : InNoNamespace root) (hc : root.children[m]? = some msg)
    (hm : IsClass py!"/" msg) (loc : AhbLocation) (l : AhbLocationLayer) (ls : List AhbLocationLayer) (hl : loc.layers = l :: ls)
    (hother : ∀ (j : Nat) (other : Xml), j ≠ m → root.children[j]? = some other → IsClass py!"/" other →
      ∀ c ∈ other.children, ¬ IsClass l.ref c) :
    (getElement root loc = .error .indexError ↔ LookupCrash msg loc) ∧
    (∀ path e, getElement root loc = .ok ⟨m :: path, e⟩ ↔ Found msg loc path e ∧ ¬ LookupCrash msg loc) ∧
    (getElement root loc = .error .valueError ↔ ¬ LookupCrash msg loc ∧ ¬ ∃ path e, Found msg loc path e) := by
  rw [getElement_keepOnly hl hother]
  have hk := keepOnly_only hc hm
  have hne : loc.layers ≠ [] := by rw [hl]; exact List.cons_ne_nil _ _
  have hns' : InNoNamespace (keepOnly m root) := hns
  exact ⟨C111_indexError hns' hk.1 hk.2 loc hne, C111_returns hns' hk.1 hk.2 loc hne, C111_valueError hns' hk.1 hk.2 loc hne⟩

/-- **C111 (no class for the first layer)** if no message class has a class for the first layer, the lookup raises a `ValueError`. -/
theorem C111_no_first_layer {root : Xml} (hns : InNoNamespace root) (loc : AhbLocation) (l : AhbLocationLayer) (ls : List AhbLocationLayer)
    (hl : loc.layers = l :: ls) (hno : ∀ msg ∈ root.children, IsClass py!"/" msg → ∀ c ∈ msg.children, ¬ IsClass l.ref c) :
    getElement root loc = .error .valueError := by
  have hne : loc.layers ≠ [] := by rw [hl]; exact List.cons_ne_nil _ _
  have h : NotElsewhere l.ref root.children.length root := fun j other _ hj => hno other (List.mem_of_getElem? hj)
  rw [getElement_keepOnly hl h]
  refine C111_no_message (root := keepOnly root.children.length root) hns ?_ loc hne
  intro c hc
  simp only [keepOnly_children, List.mem_mapIdx] at hc
  obtain ⟨i, hi, rfl⟩ := hc
  rw [if_neg (Nat.ne_of_lt hi)]
  intro h
  exact absurd h.1 (by simp [noClass, Xml.tag])

/-- a document whose second message class has no class for `UNH` -/
def exEnvelope : Xml :=
  .elem py!"UTILMD" [] none
    [xClass [(py!"name", py!"Nachricht"), (py!"ref", py!"/")]
      [xClass [(py!"ref", py!"UNH")] [exGroup py!"SEQ:1:0[1:0=Z45]", exGroup py!"SEQ:1:0[1:0=Z46]"]],
     xClass [(py!"name", py!"Umschlag"), (py!"ref", py!"/")] [xClass [(py!"ref", py!"UNB")] [], exGroup py!"SEQ:1:0[1:0=Z46]"]]

theorem exEnvelope_other : ∀ (j : Nat) (other : Xml), j ≠ 0 → exEnvelope.children[j]? = some other → IsClass py!"/" other →
    ∀ c ∈ other.children, ¬ IsClass (AhbLocationLayer.ref ⟨none, py!"UNH", none⟩) c := by
  intro j other hj hx _ c hc h
  rcases j with _ | _ | j
  · exact hj rfl
  · cases hx
    have : ∀ c ∈ [xClass [(py!"ref", py!"UNB")] [], exGroup py!"SEQ:1:0[1:0=Z46]"], dictGet py!"ref" c.attrib ≠ some py!"UNH" := by
      intro c hc
      simp only [List.mem_cons, List.not_mem_nil, or_false] at hc
      rcases hc with rfl | rfl <;> decide
    exact this c hc h.2
  · simp [exEnvelope, Xml.children] at hx

/-- the second group is found -/
example : ∃ e, Found (xClass [(py!"name", py!"Nachricht"), (py!"ref", py!"/")]
    [xClass [(py!"ref", py!"UNH")] [exGroup py!"SEQ:1:0[1:0=Z45]", exGroup py!"SEQ:1:0[1:0=Z46]"]]) exCrashLoc [0, 1] e := by
  obtain ⟨⟨p, e⟩, hn, hp⟩ := ok_of_map (r := getElement exEnvelope exCrashLoc) (f := (·.path)) (y := [0, 0, 1]) (by decide +kernel)
  cases hp
  exact ⟨e, (((C111_other_messages (by show '{' ∉ py!"UTILMD"; decide) rfl ⟨rfl, by decide⟩ exCrashLoc _ _ rfl exEnvelope_other).2.1
    [0, 1] e).1 hn).1⟩

/-- without a class for `UNH` -/
example : getElement (.elem py!"UTILMD" [] none [xClass [(py!"ref", py!"/")] [xClass [(py!"ref", py!"UNB")] []]]) exCrashLoc =
    .error .valueError := by
  refine C111_no_first_layer (by show '{' ∉ py!"UTILMD"; decide) exCrashLoc _ _ rfl ?_
  intro msg hmsg _ c hc h
  simp only [Xml.children, List.mem_singleton] at hmsg
  subst hmsg
  have hc' : c = xClass [(py!"ref", py!"UNB")] [] := List.mem_singleton.1 hc
  subst hc'
  have := h.2
  revert this
  decide

end Verif
