import Verif.Proofs.MigXml
import Verif.Proofs.Names
import Verif.Props.Components
/-!
# Properties C48 to C53: the MIG reader
-/

namespace Verif

/-! ## C51 nested qualifiers -/

/-- **C51 (in full, false of the code)** `get_nested_qualifiers` never raises. -/
def C51_statement : Prop := ∀ attribKey e, ∃ r, getNestedQualifiers attribKey e = .ok r

/-- **C51** the code raises an `IndexError` if the list of qualifiers ends with a pipe. -/
theorem C51_counterexample : ¬ C51_statement := by
  intro h
  obtain ⟨r, hr⟩ := h py!"key" (.elem py!"class" [(py!"key", py!"NAD:2:0[1:0=MS|1:0=MR|]")] none [])
  have : getNestedQualifiers py!"key" (.elem py!"class" [(py!"key", py!"NAD:2:0[1:0=MS|1:0=MR|]")] none []) =
      .error .indexError := by decide +kernel
  rw [this] at hr
  cases hr

/-- **C51** what the code returns, for every element and attribute: `None` without the attribute; otherwise an `IndexError`
exactly for a dangling pipe, the qualifiers if the attribute has one of the two forms, and `None` for everything else. -/
theorem C51_exact_partial (attribKey : PyStr) (e : Xml) :
    match dictGet attribKey e.attrib with
    | none => getNestedQualifiers attribKey e = .ok none
    | some body =>
      (DanglingPipe body ∧ getNestedQualifiers attribKey e = .error .indexError) ∨
      (¬ DanglingPipe body ∧ ∃ qs, ReadsAs body qs ∧ getNestedQualifiers attribKey e = .ok (some qs)) ∨
      ((¬ ∃ q, SingleForm body q) ∧ (¬ ∃ inner, MultiForm body inner) ∧ getNestedQualifiers attribKey e = .ok none) := by
  unfold getNestedQualifiers
  cases dictGet attribKey e.attrib with
  | none => rfl
  | some body =>
    simp only
    rcases qualifiers_cases body with ⟨h1, h2⟩ | ⟨h1, r, h2⟩
    · exact .inl ⟨h1, h2⟩
    · cases r with
      | some qs => exact .inr (.inl ⟨h1, qs, (readsAs_iff _ _).1 h2, h2⟩)
      | none =>
        refine .inr (.inr ⟨?_, ?_, h2⟩)
        · rintro ⟨q, hq⟩; rw [single_ok hq] at h2; cases h2
        · rintro ⟨inner, hi⟩
          by_cases hs : ∃ q, SingleForm body q
          · obtain ⟨q, hq⟩ := hs; rw [single_ok hq] at h2; cases h2
          · obtain ⟨_, qs, _, _, _, h⟩ := multi_ok hs hi (fun h => h1 ⟨inner, hi, h⟩)
            rw [h] at h2; cases h2

/-- **C51** for `SEG:n:m[path=q1|path=q2|...|path=qn]` (any number of qualifiers) all qualifiers are returned in order. -/
theorem C51_all_qualifiers {attribKey body : PyStr} {e : Xml} {qs : List PyStr} (ha : dictGet attribKey e.attrib = some body)
    (h : WellFormedQualifiers body qs) : getNestedQualifiers attribKey e = .ok (some qs) := by
  unfold getNestedQualifiers
  rw [ha]
  exact wellFormed_ok h

/-- **C51** a single qualifier with an arbitrary path of words is returned alone. -/
theorem C51_single {attribKey body : PyStr} {e : Xml} {q : PyStr} (ha : dictGet attribKey e.attrib = some body)
    (h : SingleForm body q) : getNestedQualifiers attribKey e = .ok (some [q]) := by
  unfold getNestedQualifiers
  rw [ha]
  exact single_ok h

/-- the hypotheses are met -/
example : WellFormedQualifiers py!"NAD:5:(0,3)[NAD:1:0=Z08|1:0=Z09|NAD:1:0=Z10]" [py!"Z08", py!"Z09", py!"Z10"] := by
  refine ⟨py!"NAD:5:(0,3)", [py!"NAD:1:0=Z08", py!"1:0=Z09", py!"NAD:1:0=Z10"], by simp, by decide, ?_, ?_⟩
  · refine ⟨py!"NAD", py!"5", py!"(0,3)", by decide, ?_, ?_, .inr ⟨py!"0", py!"3", by decide, ?_, ?_⟩⟩ <;>
      exact ⟨by decide, by decide +kernel⟩
  · have hd : ∀ c ∈ py!"0123456789", isDigit c = true := by decide +kernel
    refine .cons ⟨py!"NAD:1:0", by decide, ⟨py!"NAD:", py!"1", py!"0", by decide, .inr ⟨py!"NAD", by decide, by decide, by decide +kernel⟩,
        ⟨by decide, by decide +kernel⟩, ⟨by decide, by decide +kernel⟩⟩, by decide, by decide +kernel⟩
      (.cons ⟨py!"1:0", by decide, ⟨[], py!"1", py!"0", by decide, .inl rfl,
        ⟨by decide, by decide +kernel⟩, ⟨by decide, by decide +kernel⟩⟩, by decide, by decide +kernel⟩
      (.cons ⟨py!"NAD:1:0", by decide, ⟨py!"NAD:", py!"1", py!"0", by decide, .inr ⟨py!"NAD", by decide, by decide, by decide +kernel⟩,
        ⟨by decide, by decide +kernel⟩, ⟨by decide, by decide +kernel⟩⟩, by decide, by decide +kernel⟩ .nil))

example : getNestedQualifiers py!"key" (.elem py!"class" [(py!"ref", py!"SG12"), (py!"key", py!"NAD:5:(0,3)[NAD:1:0=Z08|1:0=Z09]")] none []) =
    .ok (some [py!"Z08", py!"Z09"]) := by decide +kernel

example : getNestedQualifiers py!"ref" (.elem py!"class" [(py!"ref", py!"SG12")] none []) = .ok none := by decide +kernel

/-- items that are not separated give a garbled qualifier: the text between the equals signs -/
example : getNestedQualifiers py!"key" (.elem py!"class" [(py!"key", py!"NAD:1:1[1:0=A1:0=B]")] none []) = .ok (some [py!"A1:0"]) := by
  decide +kernel

/-! ## C48 the lookup -/

/-- **C48** whatever element `get_element` returns — for every document and every location: below the root there is a class
with `ref` "/", below it the classes with the keys of the layers in order (UNH for none), then, if there is a data element id,
at most one class with the segment code, and finally a field with this id. Without data element id the element is the class of
the innermost layer. -/
theorem C48_lineage {root : Xml} {loc : AhbLocation} {n : XNode} (h : getElement root loc = .ok n) :
    ∃ msg classes tail, lineage root n.path = some (msg :: classes ++ tail) ∧ (msg :: classes ++ tail).getLast? = some n.elem ∧
      IsClass py!"/" msg ∧ List.Forall₂ (fun (l : AhbLocationLayer) e => IsClass l.ref e) loc.layers classes ∧
      (loc.dataElementId = none → tail = []) ∧
      ∀ d, loc.dataElementId = some d → ∃ seg field, tail = seg ++ [field] ∧ IsField d field ∧
        (seg = [] ∨ ∃ s code, seg = [s] ∧ loc.segmentCode = some code ∧ code ≠ py!"UNH" ∧ IsClass code s) :=
  getElement_lineage h

/-- **C48** if there is only one message class, the element is the one which the keys, opening qualifiers, segment code, id and
qualifier single out. -/
theorem C48_walk {root msg : Xml} {m : Nat} (hm : OnlyChild (IsClass py!"/") root m) (hc : root.children[m]? = some msg)
    {loc : AhbLocation} {n : XNode} (h : getElement root loc = .ok n) : ∃ path, n.path = m :: path ∧ Found msg loc path n.elem :=
  getElement_found hm hc h

/-- **C48** and if moreover the root is in no namespace and the qualifiers can be read, an element that is singled out is found. -/
theorem C48_complete {root msg : Xml} {m : Nat} (hns : InNoNamespace root) (hg : GoodQualifiers root) (hm : OnlyChild (IsClass py!"/") root m)
    (hc : root.children[m]? = some msg) (loc : AhbLocation) (path : List Nat) (e : Xml) :
    getElement root loc = .ok ⟨m :: path, e⟩ ↔ Found msg loc path e := by
  constructor
  · intro h
    obtain ⟨p, hp, hf⟩ := getElement_found hm hc h
    cases hp
    exact hf
  · exact found_getElement hns hg hm hc

/-- `<class ...>` -/
def xClass (attrib : List (PyStr × PyStr)) (children : List Xml) : Xml := .elem py!"class" attrib none children
/-- `<field ...>` -/
def xField (attrib : List (PyStr × PyStr)) : Xml := .elem py!"field" attrib none []

/-- a MIG with two segment groups with the same key and two data elements with the same id -/
def exMig : Xml :=
  .elem py!"UTILMD" [] none [xClass [(py!"name", py!"Dokument"), (py!"ref", py!"/"), (py!"key", py!"UNB:5:0")]
    [xClass [(py!"name", py!"Nachricht"), (py!"ref", py!"UNH")]
      [xField [(py!"name", py!"Nachrichten-Referenznummer"), (py!"ref", py!"UNH:1:0"), (py!"meta.id", py!"0062")],
       xClass [(py!"ref", py!"SG4"), (py!"key", py!"IDE:2:0"), (py!"migName", py!"Vorgang")]
        [xField [(py!"name", py!"Vertragsbeginn"), (py!"ref", py!"DTM:1:1[1:0=92]"), (py!"meta.id", py!"2380"), (py!"ahbName", py!"Beginn zum")],
         xField [(py!"name", py!"Vertragsende"), (py!"ref", py!"DTM:1:1[1:0=93]"), (py!"meta.id", py!"2380"), (py!"ahbName", py!"Ende zum")],
         xClass [(py!"name", py!"Daten"), (py!"ref", py!"SG8"), (py!"key", py!"SEQ:1:0[SEQ:1:0=Z45]")] [],
         xClass [(py!"name", py!"Weitere Daten"), (py!"ref", py!"SG8"), (py!"key", py!"SEQ:1:0[SEQ:1:0=Z46]")]
          [xClass [(py!"ref", py!"PIA"), (py!"name", py!"Produkt")]
            [xField [(py!"name", py!"ID"), (py!"ref", py!"PIA:2:0[PIA:1:0=Z02]"), (py!"meta.id", py!"7140")]]]]]]]

def exMigLayers : List AhbLocationLayer :=
  [⟨none, py!"UNH", none⟩, ⟨some py!"SG4", py!"IDE", some py!"24"⟩, ⟨some py!"SG8", py!"SEQ", some py!"Z46"⟩]

def exMigLocation : AhbLocation :=
  { layers := exMigLayers, segmentCode := some py!"PIA", dataElementId := some py!"7140", qualifier := none }

example : (getElement exMig exMigLocation).map (fun n => (n.path, n.elem.attrib)) =
    .ok ([0, 0, 1, 3, 0, 0], [(py!"name", py!"ID"), (py!"ref", py!"PIA:2:0[PIA:1:0=Z02]"), (py!"meta.id", py!"7140")]) := by decide +kernel

/-- two fields with the same id are told apart by the qualifier -/
example : (getElement exMig ⟨exMigLayers.take 2, some py!"DTM", some py!"2380", some py!"93", false⟩).map (·.path) = .ok [0, 0, 1, 1] := by decide +kernel

/-- the hypotheses of the walk theorems are met -/
example : GoodQualifiers exMig ∧ OnlyChild (IsClass py!"/") exMig 0 ∧ ∃ msg, exMig.children[0]? = some msg := by
  refine ⟨good_of_goodB (by decide +kernel), ⟨⟨_, rfl, rfl, by decide +kernel⟩, ?_⟩, _, rfl⟩
  intro j d hj _
  cases j with
  | zero => rfl
  | succ j => simp [exMig, Xml.children] at hj

theorem ok_of_map {α β : Type} {r : PyRes α} {f : α → β} {y : β} (h : r.map f = .ok y) : ∃ x, r = .ok x ∧ f x = y := by
  cases r with
  | error e => cases h
  | ok x => cases h; exact ⟨x, rfl, rfl⟩

theorem error_of_map {α β : Type} {r : PyRes α} {f : α → β} {e : Exc} (h : r.map f = .error e) : r = .error e := by
  cases r with
  | error e => cases h; rfl
  | ok x => cases h

/-- **C48** with several message classes this is false: the position is counted among all candidates but used below each
parent, so the field of another segment group is returned (here the one of Z47 although Z46 was asked for). -/
theorem C48_two_messages : ∃ root loc n, getElement root loc = .ok n ∧ loc.layers = [⟨some py!"SG2", py!"SEQ", some py!"Z46"⟩] ∧
    ∃ msg class_ field, lineage root n.path = some [msg, class_, field] ∧ dictGet py!"key" class_.attrib = some py!"SEQ:1:0[1:0=Z47]" ∧
      ¬ Mentions py!"key" (some py!"Z46") class_ := by
  let cls := fun (key : PyStr) => xClass [(py!"ref", py!"SG2"), (py!"key", key)] [xField [(py!"meta.id", py!"7140")]]
  let root : Xml := .elem py!"UTILMD" [] none [xClass [(py!"ref", py!"/")] [cls py!"SEQ:1:0[1:0=Z45]"],
    xClass [(py!"ref", py!"/")] [cls py!"SEQ:1:0[1:0=Z46]", cls py!"SEQ:1:0[1:0=Z47]"]]
  let loc : AhbLocation := ⟨[⟨some py!"SG2", py!"SEQ", some py!"Z46"⟩], none, some py!"7140", none, false⟩
  have h : (getElement root loc).map (·.path) = .ok [1, 1, 0] := by decide +kernel
  obtain ⟨n, hn, hp⟩ := ok_of_map h
  refine ⟨root, loc, n, hn, rfl, ?_⟩
  rw [hp]
  refine ⟨_, _, _, rfl, by decide +kernel, ?_⟩
  rw [← hasQualifier_true (n := ⟨[], _⟩)]
  decide +kernel

/-! ## C49 failures -/

/-- **C49 (in full, false of the code)** if `get_element` does not return an element it raises a `ValueError`. -/
def C49_statement : Prop := ∀ root loc e, loc.layers ≠ [] → getElement root loc = .error e → e = .valueError

/-- **C49** a `key` with a dangling pipe leads to an `IndexError`. -/
theorem C49_counterexample : ¬ C49_statement := by
  intro h
  let cls := fun (key : PyStr) => xClass [(py!"ref", py!"SG2"), (py!"key", key)] []
  have := h (.elem py!"UTILMD" [] none [xClass [(py!"ref", py!"/")] [cls py!"SEQ:1:0[1:0=Z45|]", cls py!"SEQ:1:0[1:0=Z46]"]])
    ⟨[⟨some py!"SG2", py!"SEQ", some py!"Z46"⟩], none, none, none, false⟩
    .indexError (by decide) (error_of_map (f := (·.path)) (by decide +kernel))
  cases this

/-- **C49 (partial)** if the root is in no namespace and no `key` or `ref` ends with a dangling pipe, every failure is a `ValueError`.
The layers of a location are never empty (validated in `AhbLocation`). -/
theorem C49_valueError_partial {root : Xml} (hns : InNoNamespace root) (hg : GoodQualifiers root) {loc : AhbLocation}
    (hne : loc.layers ≠ []) {e : Exc} (h : getElement root loc = .error e) : e = .valueError := by
  rcases getElement_error hne h with ⟨_, h⟩ | ⟨-, h | ⟨_, steps, hs, h | h⟩⟩
  · exact absurd hns h
  · exact h
  · exact absurd (good_clean hg (.inl rfl) hs) h
  · exact absurd (good_clean hg (.inr rfl) hs) h

/-- **C49** without any condition on the document: the only other failures are an `IndexError`, and then there is an attribute with
a dangling pipe, and lxml's `XPathEvalError`, and then the root is in a namespace. -/
theorem C49_errors {root : Xml} {loc : AhbLocation} (hne : loc.layers ≠ []) {e : Exc} (h : getElement root loc = .error e) :
    e = .valueError ∨ (e = .indexError ∧ ¬ GoodQualifiers root) ∨ (e = .other ∧ ¬ InNoNamespace root) := by
  rcases getElement_error hne h with h | ⟨-, h | ⟨h, steps, hs, h' | h'⟩⟩
  · exact .inr (.inr h)
  · exact .inl h
  · exact .inr (.inl ⟨h, fun hg => h' (good_clean hg (.inl rfl) hs)⟩)
  · exact .inr (.inl ⟨h, fun hg => h' (good_clean hg (.inr rfl) hs)⟩)

/-- **C49** in a MIG whose root is in a namespace nothing is found: every lookup raises lxml's error. -/
theorem C49_namespace {root : Xml} (hns : ¬ InNoNamespace root) {loc : AhbLocation} (hne : loc.layers ≠ []) :
    getElement root loc = .error .other := by
  unfold getElement
  cases hl : loc.layers with
  | nil => exact absurd hl hne
  | cons l ls => exact if_pos (Classical.not_not.1 hns)

example : ¬ InNoNamespace (.elem py!"{urn:mig}UTILMD" [] none []) ∧ InNoNamespace exMig := by unfold InNoNamespace; decide

/-- **C49** in a document with one message class, in no namespace and without dangling pipes: a `ValueError` is raised exactly if the
keys, opening qualifiers, segment code, id and qualifier single out no element. -/
theorem C49_valueError_iff {root msg : Xml} {m : Nat} (hns : InNoNamespace root) (hg : GoodQualifiers root)
    (hm : OnlyChild (IsClass py!"/") root m) (hc : root.children[m]? = some msg) (loc : AhbLocation) (hne : loc.layers ≠ []) :
    getElement root loc = .error .valueError ↔ ¬ ∃ path e, Found msg loc path e := by
  constructor
  · rintro h ⟨path, e, hf⟩
    rw [(C48_complete hns hg hm hc loc path e).2 hf] at h
    cases h
  · intro h
    cases hr : getElement root loc with
    | error x => rw [C49_valueError_partial hns hg hne hr]
    | ok n =>
      obtain ⟨path, _, hf⟩ := C48_walk hm hc hr
      exact absurd ⟨path, _, hf⟩ h

/-- the layers of a constructed location are not empty -/
theorem C49_layers {layers : List AhbLocationLayer} {s d q : Option PyStr} {p : Bool} {loc : AhbLocation}
    (h : AhbLocation.new layers s d q p = .ok loc) : loc.layers ≠ [] := by
  unfold AhbLocation.new at h
  repeat' split at h
  all_goals cases h
  all_goals simp_all

example : getElement exMig { exMigLocation with dataElementId := some py!"7141" } = .error .valueError ∧
    exMigLocation.layers ≠ [] ∧ GoodQualifiers exMig := ⟨error_of_map (f := (·.path)) (by decide +kernel), by decide, good_of_goodB (by decide +kernel)⟩

/-! ## C50 stacks -/

/-- **C50 (in full, false of the code)** each level is named by the element itself. -/
def C50_statement : Prop := ∀ root path es st, lineage root path = some es → elementToEdifactStack root path = .ok st →
  List.Forall₂ (fun e (l : EdifactStackLevel) => NameOf e l.name) es st.levels

/-- **C50** an element without name gets the name of the element above it. -/
theorem C50_counterexample : ¬ C50_statement := by
  intro h
  have := h (.elem py!"MSCONS" [] none [xClass [(py!"name", py!"A")] [xClass [] []]]) [0, 0] _ _ rfl rfl
  cases this with
  | cons _ h =>
    cases h with
    | cons h _ =>
      rw [← ownName_iff] at h
      revert h
      decide +kernel

/-- **C50** for every element of every document there is one level per element on the way to it (without the root); the level is
groupable iff the element is a class and has the name of the element or, if it has none, of the nearest named element above. -/
theorem C50_levels {root : Xml} {path : List Nat} {es : List Xml} {st : EdifactStack} (h : lineage root path = some es)
    (hs : elementToEdifactStack root path = .ok st) :
    st.levels.length = es.length ∧ ∀ (i : Nat) (e : Xml) (l : EdifactStackLevel), es[i]? = some e → st.levels[i]? = some l →
      LevelOf (es.take i) e l := by
  unfold elementToEdifactStack at hs
  obtain ⟨h1, h2⟩ := stackLoop_levels none root path h
  cases hr : stackLoop none root path with
  | error x => rw [hr] at hs; cases hs
  | ok ls =>
    rw [hr] at hs
    cases hs
    have := levels_spec ((h1 ls).1 hr) [] (by simp)
    simpa using this

/-- **C50 (partial)** if all elements on the way have a name, each level has the name of its own element. -/
theorem C50_names_partial {root : Xml} {path : List Nat} {es : List Xml} (h : lineage root path = some es)
    (hn : ∀ e ∈ es, ∃ n, NameOf e n) :
    ∃ st, elementToEdifactStack root path = .ok st ∧
      List.Forall₂ (fun e (l : EdifactStackLevel) => NameOf e l.name ∧ (l.isGroupable = true ↔ e.tag = py!"class") ∧ l.index = none)
        es st.levels := by
  obtain ⟨h1, h2⟩ := stackLoop_levels none root path h
  obtain ⟨ls, hls⟩ := levels_exist none es (.inr (by
    rintro y ys rfl ho
    exact (ownName_none y).1 ho (hn y (by simp))))
  refine ⟨⟨ls⟩, ?_, ?_⟩
  · unfold elementToEdifactStack
    rw [(h1 ls).2 hls]; rfl
  · clear h h1 h2
    revert hls hn
    generalize (none : Option PyStr) = name
    intro hn hls
    induction hls with
    | nil => exact .nil
    | @cons name e es n ls h _ ih =>
      refine .cons ⟨?_, by simp, rfl⟩ (ih (fun e he => hn e (by simp [he])))
      obtain ⟨m, hm⟩ := hn e (by simp)
      rw [(ownName_iff e m).2 hm] at h
      cases h
      exact hm

/-- **C50** the stack exists unless the outermost element has no name, which is an `UnboundLocalError`. -/
theorem C50_error {root : Xml} {path : List Nat} {es : List Xml} (h : lineage root path = some es) (x : Exc) :
    elementToEdifactStack root path = .error x ↔ x = .unboundLocalError ∧ ∃ e rest, es = e :: rest ∧ ¬ ∃ n, NameOf e n := by
  obtain ⟨h1, h2⟩ := stackLoop_levels none root path h
  unfold elementToEdifactStack
  constructor
  · intro hx
    cases hr : stackLoop none root path with
    | ok ls => rw [hr] at hx; cases hx
    | error y =>
      rw [hr] at hx
      cases hx
      obtain ⟨h3, _, e, rest, h4, h5⟩ := h2 _ hr
      exact ⟨h3, e, rest, h4, (ownName_none e).1 h5⟩
  · rintro ⟨rfl, e, rest, rfl, h3⟩
    cases hr : stackLoop none root path with
    | error y => rw [(h2 y hr).1]; rfl
    | ok ls =>
      have := (h1 ls).1 hr
      cases this with
      | cons h4 _ => rw [(ownName_none e).2 h3] at h4; cases h4

/-- **C50** the stack of a descendant is a sub stack of the stack of its ancestor. -/
theorem C50_descendant {root : Xml} {p q : List Nat} {st st' : EdifactStack} {es : List Xml} (hl : lineage root (p ++ q) = some es)
    (h : elementToEdifactStack root p = .ok st) (h' : elementToEdifactStack root (p ++ q) = .ok st') :
    st'.isSubStackOf st = true ∧ st.levels <+: st'.levels := by
  obtain ⟨es1, es2, hl1, _, rfl⟩ := (lineage_append _ _ _ _).1 hl
  have key : st.levels <+: st'.levels := by
    unfold elementToEdifactStack at h h'
    cases hr : stackLoop none root p with
    | error y => rw [hr] at h; cases h
    | ok ls =>
      cases hr' : stackLoop none root (p ++ q) with
      | error y => rw [hr'] at h'; cases h'
      | ok ls' =>
        rw [hr] at h
        rw [hr'] at h'
        cases h
        cases h'
        obtain ⟨l1, l2, rfl, h3⟩ := levels_append (((stackLoop_levels none root _ hl).1 _).1 hr')
        have h4 := ((stackLoop_levels none root _ hl1).1 _).2 h3
        rw [hr] at h4
        cases h4
        exact ⟨l2, rfl⟩
  exact ⟨(C37_prefix st' st).1.2 key, key⟩

/-- **C50** the stack of a location has a level for the message, one for each layer and, with a data element id, one or two more. -/
theorem C50_of_location {root : Xml} {loc : AhbLocation} {st : EdifactStack} (h : getEdifactStack root loc = .ok st) :
    (loc.dataElementId = none → st.levels.length = loc.layers.length + 1) ∧
    (loc.dataElementId ≠ none → st.levels.length = loc.layers.length + 2 ∨ st.levels.length = loc.layers.length + 3) := by
  unfold getEdifactStack at h
  cases hn : getElement root loc with
  | error e => rw [hn] at h; cases h
  | ok n =>
    rw [hn] at h
    have h : elementToEdifactStack root n.path = .ok st := h
    obtain ⟨msg, classes, tail, h1, _, _, h4, h5, h6⟩ := C48_lineage hn
    have hlen := (C50_levels h1 h).1
    have hlen2 := h4.length_eq
    refine ⟨fun hd => ?_, fun hd => ?_⟩
    · rw [hlen, h5 hd]; simp [hlen2]
    · obtain ⟨d, hd⟩ := Option.ne_none_iff_exists'.1 hd
      obtain ⟨seg, field, rfl, _, h7⟩ := h6 d hd
      rcases h7 with rfl | ⟨s, c, rfl, _⟩
      · left; rw [hlen]; simp [hlen2]
      · right; rw [hlen]; simp [hlen2]

example : getEdifactStack exMig exMigLocation = .ok ⟨[⟨py!"Dokument", true, none⟩, ⟨py!"Nachricht", true, none⟩,
    ⟨py!"Vorgang", true, none⟩, ⟨py!"Weitere Daten", true, none⟩, ⟨py!"Produkt", true, none⟩, ⟨py!"ID", false, none⟩]⟩ := by
  decide +kernel

example : ∃ es, lineage exMig [0, 0, 1, 0] = some es ∧ ∀ e ∈ es, ∃ n, NameOf e n := by
  refine ⟨_, rfl, ?_⟩
  intro e he
  have : ownName e ≠ none := by
    simp only [List.mem_cons, List.not_mem_nil, or_false] at he
    rcases he with rfl | rfl | rfl | rfl <;> decide +kernel
  obtain ⟨n, hn⟩ := Option.ne_none_iff_exists'.1 this
  exact ⟨n, (ownName_iff e n).1 hn⟩

/-! ## C52 names -/

/-- **C52** similarity is reflexive, symmetric and transitive. -/
theorem C52_equivalence : Equivalence fun x y : Option PyStr => areSimilarNames x y = true := by
  refine ⟨?_, ?_, ?_⟩
  · intro x
    rw [similar_iff]
    rcases x with _ | _ | ⟨c, s⟩
    · exact .inl ⟨.inl rfl, .inl rfl⟩
    · exact .inl ⟨.inr rfl, .inr rfl⟩
    · exact .inr ⟨_, _, rfl, rfl, by simp, by simp, rfl⟩
  · intro x y h
    rw [similar_iff] at h ⊢
    rcases h with ⟨h1, h2⟩ | ⟨a, b, h1, h2, h3, h4, h5⟩
    · exact .inl ⟨h2, h1⟩
    · exact .inr ⟨b, a, h2, h1, h4, h3, h5.symm⟩
  · intro x y z h h'
    rw [similar_iff] at h h' ⊢
    rcases h with ⟨h1, h2⟩ | ⟨a, b, h1, h2, h3, h4, h5⟩ <;> rcases h' with ⟨h1', h2'⟩ | ⟨a', b', h1', h2', h3', h4', h5'⟩
    · exact .inl ⟨h1, h2'⟩
    · subst h1'
      rcases h2 with h | h
      · cases h
      · cases h; exact absurd rfl h3'
    · subst h2
      rcases h1' with h | h
      · cases h
      · cases h; exact absurd rfl h4
    · subst h2
      cases h1'
      exact .inr ⟨a, b', h1, h2', h3, h4', h5.trans h5'⟩

/-- **C52** `make_name_comparable` is idempotent, and its result has no blank, hyphen, newline or sharp s. -/
theorem C52_comparable (s : PyStr) : makeNameComparable (makeNameComparable s) = makeNameComparable s ∧
    ' ' ∉ makeNameComparable s ∧ '-' ∉ makeNameComparable s ∧ '\n' ∉ makeNameComparable s ∧ 'ß' ∉ makeNameComparable s := by
  refine ⟨comparable_idem s, ?_, ?_, ?_, ?_⟩
  · intro h; exact (comparable_mem h).2.1 rfl
  · intro h; exact (comparable_mem h).2.2.1 rfl
  · intro h; exact (comparable_mem h).2.2.2.1 rfl
  · intro h; exact (comparable_mem h).2.2.2.2 rfl

/-- **C52** the similarity of non-empty names without capital sigma is decided by the single characters: lower case, sharp s as
ss, without blanks, hyphens and newlines. -/
theorem C52_characters {x y : PyStr} (hx : ∀ c ∈ x, c.toNat ≠ 0x3A3) (hy : ∀ c ∈ y, c.toNat ≠ 0x3A3) (hx0 : x ≠ []) (hy0 : y ≠ []) :
    areSimilarNames (some x) (some y) = true ↔ x.flatMap folded = y.flatMap folded := by
  rw [similar_iff, ← comparable_no_sigma x hx, ← comparable_no_sigma y hy]
  constructor
  · rintro (⟨h, _⟩ | ⟨a, b, h1, h2, _, _, h⟩)
    · simp [hx0] at h
    · cases h1; cases h2; exact h
  · intro h; exact .inr ⟨x, y, rfl, rfl, hx0, hy0, h⟩

/-- **C52 (in full, false of the code)** a name is similar to itself with a blank, hyphen or newline inserted anywhere. -/
def C52_insertion_statement : Prop := ∀ (a b : PyStr) (c : Char), a ++ b ≠ [] → (c = ' ' ∨ c = '-' ∨ c = '\n') →
  areSimilarNames (some (a ++ b)) (some (a ++ c :: b)) = true

/-- **C52** Greek names break this, because the lower case form of a capital sigma depends on whether the word ends. -/
theorem C52_insertion_counterexample : ¬ C52_insertion_statement := by
  intro h
  have := h [Char.ofNat 0x391, Char.ofNat 0x3A3] [Char.ofNat 0x391] '-' (by decide) (by decide)
  revert this
  decide +kernel

/-- **C52 (partial)** for names without capital sigma: any number of blanks, hyphens and newlines may be inserted. -/
theorem C52_insertion_partial (a b : PyStr) (c : Char) (h : a ++ b ≠ []) (hc : c = ' ' ∨ c = '-' ∨ c = '\n')
    (hs : ∀ x ∈ a ++ b, x.toNat ≠ 0x3A3) : areSimilarNames (some (a ++ b)) (some (a ++ c :: b)) = true := by
  have hs' : ∀ x ∈ a ++ c :: b, x.toNat ≠ 0x3A3 := by
    intro x hx
    simp only [List.mem_append, List.mem_cons] at hx
    rcases hx with hx | rfl | hx
    · exact hs x (by simp [hx])
    · rcases hc with rfl | rfl | rfl <;> decide
    · exact hs x (by simp [hx])
  rw [C52_characters hs hs' h (by simp)]
  have : folded c = [] := by rcases hc with rfl | rfl | rfl <;> decide +kernel
  simp [List.flatMap_append, this]

/-- **C52 (partial)** for names without capital sigma: a letter may be replaced by one with the same lower case form. -/
theorem C52_casing_partial (a b : PyStr) (c d : Char) (h : lowerChar c = lowerChar d)
    (hs : ∀ x ∈ a ++ c :: d :: b, x.toNat ≠ 0x3A3) : areSimilarNames (some (a ++ c :: b)) (some (a ++ d :: b)) = true := by
  have hs1 : ∀ x ∈ a ++ c :: b, x.toNat ≠ 0x3A3 := fun x hx => hs x (by
    simp only [List.mem_append, List.mem_cons] at hx ⊢; tauto)
  have hs2 : ∀ x ∈ a ++ d :: b, x.toNat ≠ 0x3A3 := fun x hx => hs x (by
    simp only [List.mem_append, List.mem_cons] at hx ⊢; tauto)
  rw [C52_characters hs1 hs2 (by simp) (by simp)]
  simp [List.flatMap_append, folded, h]

/-- **C52** the letters of German names: capital and small letters have the same lower case form. -/
theorem C52_german_letters : ∀ p ∈ (py!"ABCDEFGHIJKLMNOPQRSTUVWXYZÄÖÜ").zip (py!"abcdefghijklmnopqrstuvwxyzäöü"),
    lowerChar p.1 = lowerChar p.2 ∧ folded p.1 = [p.2] := by decide +kernel

/-- **C52** the sharp s in all its forms -/
theorem C52_sharp_s : folded 'ß' = py!"ss" ∧ folded 'ẞ' = py!"ss" ∧ folded 's' = py!"s" ∧ folded 'S' = py!"s" := by decide +kernel

example : areSimilarNames (some py!"MP-ID Absender") (some py!"mpid-abSENDER\n") = true ∧
    areSimilarNames (some py!"Straße") (some py!"STRASSE") = true ∧
    areSimilarNames (some py!"Straße") (some py!"STRASE") = false ∧
    areSimilarNames none (some []) = true ∧ areSimilarNames (some py!"-") (some []) = false := by decide +kernel

example : ∀ c ∈ py!"MP-ID Absender Ö", c.toNat ≠ 0x3A3 := by decide +kernel

/-! ## C53 trees -/

/-- **C53** for every document: every element keeps its place, tag, text, number of children and attributes; only the values of
`name` and `ahbName` become comparable. Doing it twice is doing it once. -/
theorem C53_tree (root : Xml) :
    Renamed root (makeTreeNamesComparable root) ∧
    (∀ path, (lineage root path = none ∧ lineage (makeTreeNamesComparable root) path = none) ∨
      ∃ es es', lineage root path = some es ∧ lineage (makeTreeNamesComparable root) path = some es' ∧ List.Forall₂ Renamed es es') ∧
    makeTreeNamesComparable (makeTreeNamesComparable root) = makeTreeNamesComparable root := by
  refine ⟨renamed_makeTree root, fun path => ?_, makeTree_idem root⟩
  rw [lineage_makeTree]
  cases lineage root path with
  | none => exact .inl ⟨rfl, rfl⟩
  | some es =>
    refine .inr ⟨es, es.map makeTreeNamesComparable, rfl, rfl, ?_⟩
    rw [List.forall₂_map_right_iff, List.forall₂_same]
    exact fun e _ => renamed_makeTree e

example : ∃ es, lineage (makeTreeNamesComparable exMig) [0, 0, 1, 0] = some es ∧
    es.map Xml.attrib = [[(py!"name", py!"dokument"), (py!"ref", py!"/"), (py!"key", py!"UNB:5:0")],
      [(py!"name", py!"nachricht"), (py!"ref", py!"UNH")],
      [(py!"ref", py!"SG4"), (py!"key", py!"IDE:2:0"), (py!"migName", py!"Vorgang")],
      [(py!"name", py!"vertragsbeginn"), (py!"ref", py!"DTM:1:1[1:0=92]"), (py!"meta.id", py!"2380"), (py!"ahbName", py!"beginnzum")]] :=
  ⟨_, rfl, by decide +kernel⟩

end Verif
