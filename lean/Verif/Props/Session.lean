import Verif.Proofs.Session
import Verif.Proofs.LocationRead
import Verif.Props.FlatEdit
/-!
# C120: what is shared by the objects that are made from one CSV reader
-/

namespace Verif

/-- **C120** `to_flat_ahb`, at any time: it raises, and changes nothing, or it returns the flat AHB that the lines of the reader give at this
time. Reader, earlier flat AHBs and deep AHBs look as before. -/
theorem C120_to_flat (s : Session) (hs : s.Reachable) :
    (∀ e, s.reader.toFlatAhb = .error e → s.apply .toFlat = (s, some e)) ∧
    ∀ f, s.reader.toFlatAhb = .ok f → (s.apply .toFlat).2 = none ∧ (s.apply .toFlat).1.flats.length = s.flats.length + 1 ∧
      (s.apply .toFlat).1.flat? s.flats.length = some f ∧ (∀ i, i < s.flats.length → (s.apply .toFlat).1.flat? i = s.flat? i) ∧
      (∀ d, (s.apply .toFlat).1.deep? d = s.deep? d) ∧ (s.apply .toFlat).1.reader = s.reader := by
  have inv := sessionInv_reachable hs
  have hfilter : (s.rows.map s.lines).filter AhbLine.holdsAnyInformation =
      (s.rows.filter fun r => (s.lines r).holdsAnyInformation).map s.lines := by
    rw [List.filter_map]
    rfl
  simp only [CsvReader.toFlatAhb, Session.reader, FlatAhb.new, hfilter, Session.apply, bind, Except.bind]
  cases hm : AhbMetaInformation.new { pruefidentifikator := s.pruefidentifikator } with
  | error e =>
    refine ⟨fun e' h => ?_, fun f h => ?_⟩
    · injection h with h; rw [h]
    · cases h
  | ok m =>
    simp only
    cases hc : FlatAhb.checkLines ((s.rows.filter fun r => (s.lines r).holdsAnyInformation).map s.lines) with
    | error e =>
      refine ⟨fun e' h => ?_, fun f h => ?_⟩
      · injection h with h; rw [h]
      · cases h
    | ok u =>
      refine ⟨fun e' h => ?_, fun f h => ?_⟩
      · cases h
      · injection h with h
        subst h
        refine ⟨rfl, by simp, ?_, fun i hi => ?_, fun d => ?_, rfl⟩
        · simp [Session.flat?]
        · simp only [Session.flat?]
          rw [List.getElem?_append_left hi]
          cases hf : s.flats[i]? with
          | none => rfl
          | some f =>
            have hne : f.1 ≠ s.metaCount := Nat.ne_of_lt (inv.bound _ (List.mem_map.2 ⟨f, List.mem_of_getElem? hf, rfl⟩))
            simp [hne]
        · simp only [Session.deep?]
          cases hd : s.deeps[d]? with
          | none => rfl
          | some x =>
            have hne : x.1 ≠ s.metaCount := Nat.ne_of_lt (inv.bound _ (inv.deep x (List.mem_of_getElem? hd)))
            simp [hne]

/-- **C120** `to_deep_ahb`, at any time: the new deep AHB and the exception are those of the conversion of the flat AHB as it is seen at this
time, and the deep AHB has the meta information object of the flat AHB. The version is written into the meta information of the flat AHB, also
if the conversion raises. -/
theorem C120_to_deep (s : Session) (i : Nat) (f : FlatAhb) (hf : s.flat? i = some f) (mig : MigLookup) (posStr : AhbLocation → PyStr)
    (sgh : Sgh) :
    (s.apply (.toDeep i mig posStr sgh)).1.flat? i = some { f with ahbMeta := { f.ahbMeta with mausVersion := some mausVersion } } ∧
    (∀ e, toDeepAhb mig posStr f sgh = .error e → (s.apply (.toDeep i mig posStr sgh)).2 = some e ∧
      (s.apply (.toDeep i mig posStr sgh)).1.deeps.length = s.deeps.length) ∧
    ∀ f' deep, toDeepAhb mig posStr f sgh = .ok (f', deep) → (s.apply (.toDeep i mig posStr sgh)).2 = none ∧
      (s.apply (.toDeep i mig posStr sgh)).1.deeps.length = s.deeps.length + 1 ∧
      (s.apply (.toDeep i mig posStr sgh)).1.deep? s.deeps.length = some deep ∧
      (s.apply (.toDeep i mig posStr sgh)).1.Converted s.deeps.length i := by
  unfold Session.flat? at hf
  cases hx : s.flats[i]? with
  | none => rw [hx] at hf; cases hf
  | some x =>
    obtain ⟨m, refs⟩ := x
    rw [hx] at hf
    injection hf with hf
    subst hf
    have hv : toDeepAhb mig posStr ⟨{ s.metas m with mausVersion := some mausVersion }, refs.map s.lines⟩ sgh =
        toDeepAhb mig posStr ⟨s.metas m, refs.map s.lines⟩ sgh := rfl
    simp only [Session.apply, hx, if_true, hv]
    cases hd : toDeepAhb mig posStr ⟨s.metas m, refs.map s.lines⟩ sgh with
    | error e =>
      refine ⟨by simp [Session.flat?, hx], fun e' h => ?_, fun f' deep h => (by cases h)⟩
      injection h with h
      exact ⟨by rw [h], rfl⟩
    | ok res =>
      obtain ⟨f1, deep1⟩ := res
      refine ⟨by simp [Session.flat?, hx], fun e' h => (by cases h), fun f' deep h => ?_⟩
      injection h with h
      injection h with h1 h2
      subst h1 h2
      refine ⟨rfl, by simp, ?_, m, refs, deep1.lines, hx, by simp⟩
      have hmeta : deep1.ahbMeta = { s.metas m with mausVersion := some mausVersion } := by
        simp only [toDeepAhb, bind, Except.bind] at hd
        split at hd
        · cases hd
        · split at hd
          · cases hd
          · injection hd with hd
            injection hd with _ hd
            rw [← hd]
      simp only [Session.deep?, List.getElem?_concat_length, Option.map_some, if_true, ← hmeta]

/-- **C120** what a step can change, for all steps but `to_flat_ahb` (see `C120_to_flat`). The lines of the reader: only an assignment to an
attribute of a line. A flat AHB: only an assignment to an attribute of a line, a change of its own list, or a step that writes into its meta
information. A deep AHB: only a change of its own groups, or a step that writes into the meta information of the flat AHB it was converted
from. -/
theorem C120_frame (s : Session) (hs : s.Reachable) (op : SessionOp) :
    (¬ op.AssignsLine → (s.apply op).1.reader.rows = s.reader.rows) ∧
    (∀ i, i < s.flats.length → ¬ op.AssignsLine → ¬ op.ChangesList i → ¬ op.WritesMeta s i → (s.apply op).1.flat? i = s.flat? i) ∧
    (∀ d, d < s.deeps.length → ¬ op.ChangesDeep d → (∀ i, s.Converted d i → ¬ op.WritesMeta s i) →
      (s.apply op).1.deep? d = s.deep? d) := by
  have inv := sessionInv_reachable hs
  refine ⟨fun h => ?_, fun i hi h1 h2 h3 => ?_, fun d hd h1 h2 => ?_⟩
  · simp only [Session.reader, (session_rows s op).1, session_lines s op h]
  · simp only [Session.flat?, session_flats s op hi h2, session_lines s op h1]
    cases hf : s.flats[i]? with
    | none => rfl
    | some f => simp only [Option.map_some, session_metas inv op hf h3]
  · simp only [Session.deep?, session_deeps s op hd h1]
    cases hx : s.deeps[d]? with
    | none => rfl
    | some x =>
      obtain ⟨f, hf, he⟩ := List.mem_map.1 (inv.deep x (List.mem_of_getElem? hx))
      obtain ⟨i, hi⟩ := List.getElem?_of_mem hf
      have := session_metas inv op hi (h2 i ⟨f.1, f.2, x.2, hi, by rw [hx, he]⟩)
      rw [he] at this
      simp only [Option.map_some, this]

/-- **C120** a flat AHB and the deep AHBs that were converted from it: whatever is done, they keep having the same meta information -/
theorem C120_meta_shared (s : Session) (d i : Nat) (h : s.Converted d i) (ops : List SessionOp) :
    (s.run ops).Converted d i ∧ ∃ f deep, (s.run ops).flat? i = some f ∧ (s.run ops).deep? d = some deep ∧ deep.ahbMeta = f.ahbMeta := by
  have key : (s.run ops).Converted d i := by
    unfold Session.run
    induction ops generalizing s with
    | nil => exact h
    | cons op ops ih =>
      refine ih _ ?_
      obtain ⟨m, refs, groups, h1, h2⟩ := h
      obtain ⟨refs', h1⟩ := session_flats_meta s op h1
      obtain ⟨groups', h2⟩ := session_deeps_meta s op h2
      exact ⟨m, refs', groups', h1, h2⟩
  refine ⟨key, ?_⟩
  obtain ⟨m, refs, groups, h1, h2⟩ := key
  exact ⟨_, _, by rw [Session.flat?, h1]; rfl, by rw [Session.deep?, h2]; rfl, rfl⟩

/-- **C120** two flat AHBs of the same reader: whatever is done, except for changes of their lists, they keep having the same lines -/
theorem C120_lines_shared (s : Session) (f : FlatAhb) (hf : s.reader.toFlatAhb = .ok f) (ops : List SessionOp)
    (hops : ∀ op ∈ ops, ¬ op.ChangesList s.flats.length ∧ ¬ op.ChangesList (s.flats.length + 1)) :
    ∃ f1 f2, (((s.apply .toFlat).1.apply .toFlat).1.run ops).flat? s.flats.length = some f1 ∧
      (((s.apply .toFlat).1.apply .toFlat).1.run ops).flat? (s.flats.length + 1) = some f2 ∧ f1.lines = f2.lines := by
  obtain ⟨m, refs, hone⟩ : ∃ m refs, ∀ t : Session, t.lines = s.lines → t.rows = s.rows → t.pruefidentifikator = s.pruefidentifikator →
      (t.apply .toFlat).1 = { t with metas := fun k => if k = t.metaCount then m else t.metas k, metaCount := t.metaCount + 1,
                                     flats := t.flats ++ [(t.metaCount, refs)] } := by
    have hfilter : (s.rows.map s.lines).filter AhbLine.holdsAnyInformation =
        (s.rows.filter fun r => (s.lines r).holdsAnyInformation).map s.lines := by
      rw [List.filter_map]
      rfl
    simp only [CsvReader.toFlatAhb, Session.reader, FlatAhb.new, hfilter, bind, Except.bind] at hf
    cases hm : AhbMetaInformation.new { pruefidentifikator := s.pruefidentifikator } with
    | error e => rw [hm] at hf; cases hf
    | ok m =>
      rw [hm] at hf
      simp only at hf
      cases hc : FlatAhb.checkLines ((s.rows.filter fun r => (s.lines r).holdsAnyInformation).map s.lines) with
      | error e => rw [hc] at hf; cases hf
      | ok u =>
        refine ⟨m, s.rows.filter fun r => (s.lines r).holdsAnyInformation, fun t h1 h2 h3 => ?_⟩
        simp only [Session.apply, h1, h2, h3, hm, hc]
  have h1 := hone s rfl rfl rfl
  have h2 := hone (s.apply .toFlat).1 (by rw [h1]) (by rw [h1]) (by rw [h1])
  have hstart : ∃ m1 m2, ((s.apply .toFlat).1.apply .toFlat).1.flats[s.flats.length]? = some (m1, refs) ∧
      ((s.apply .toFlat).1.apply .toFlat).1.flats[s.flats.length + 1]? = some (m2, refs) := by
    refine ⟨s.metaCount, s.metaCount + 1, ?_, ?_⟩
    · rw [h2, h1]
      simp
    · rw [h2, h1]
      simp
  generalize ((s.apply .toFlat).1.apply .toFlat).1 = t at *
  have key : ∀ (ops : List SessionOp) (t : Session),
      (∀ op ∈ ops, ¬ op.ChangesList s.flats.length ∧ ¬ op.ChangesList (s.flats.length + 1)) →
      (∃ m1 m2, t.flats[s.flats.length]? = some (m1, refs) ∧ t.flats[s.flats.length + 1]? = some (m2, refs)) →
      ∃ m1 m2, (t.run ops).flats[s.flats.length]? = some (m1, refs) ∧ (t.run ops).flats[s.flats.length + 1]? = some (m2, refs) := by
    intro ops
    induction ops with
    | nil => exact fun _ _ h => h
    | cons op ops ih =>
      rintro t hops ⟨m1, m2, e1, e2⟩
      obtain ⟨n1, n2⟩ := hops op (List.mem_cons_self ..)
      refine ih _ (fun x hx => hops x (List.mem_cons_of_mem _ hx)) ⟨m1, m2, ?_, ?_⟩
      · rw [session_flats t op (List.getElem?_eq_some_iff.1 e1).1 n1, e1]
      · rw [session_flats t op (List.getElem?_eq_some_iff.1 e2).1 n2, e2]
  obtain ⟨m1, m2, e1, e2⟩ := key ops t hops hstart
  exact ⟨⟨(t.run ops).metas m1, refs.map (t.run ops).lines⟩, ⟨(t.run ops).metas m2, refs.map (t.run ops).lines⟩,
    by rw [Session.flat?, e1]; rfl, by rw [Session.flat?, e2]; rfl, rfl⟩

/-- **C120** as long as no attribute of a line is assigned, `to_flat_ahb` returns the same each time, whatever is done with the flat and deep
AHBs -/
theorem C120_to_flat_again (s : Session) (ops : List SessionOp) (hops : ∀ op ∈ ops, ¬ op.AssignsLine) :
    (s.run ops).reader.toFlatAhb = s.reader.toFlatAhb := by
  unfold Session.run
  induction ops generalizing s with
  | nil => rfl
  | cons op ops ih =>
    rw [List.foldl_cons, ih _ fun x hx => hops x (List.mem_cons_of_mem _ hx)]
    simp only [CsvReader.toFlatAhb, Session.reader, (session_rows s op).1, (session_rows s op).2,
      session_lines s op (hops op (List.mem_cons_self ..))]

/-- **C120** where the histories begin: the reader as it was constructed, each line an object of its own, and no other objects. As long as
nothing is assigned to lines, `to_flat_ahb` returns what it returned at the beginning; as long as no condition text is set, so does
`extract_condition_texts`. -/
theorem C120_reader (r : CsvReader) :
    (Session.ofReader r).reader = r ∧ (Session.ofReader r).rows.Nodup ∧ (∀ i, (Session.ofReader r).flat? i = none) ∧
    (∀ d, (Session.ofReader r).deep? d = none) ∧
    (∀ ops : List SessionOp, (∀ op ∈ ops, ¬ op.AssignsLine) → ((Session.ofReader r).run ops).reader.toFlatAhb = r.toFlatAhb) ∧
    ∀ ops : List SessionOp, (∀ key text, .setCondition key text ∉ ops) →
      ((Session.ofReader r).run ops).reader.extractConditionTexts = r.extractConditionTexts := by
  have h : (Session.ofReader r).reader = r := by
    have hrows : (List.range r.rows.length).map (fun i => r.rows.getD i {}) = r.rows := by
      apply List.ext_getElem
      · simp
      · intro i h1 h2
        simp [List.getElem?_eq_getElem h2]
    simp only [Session.reader, Session.ofReader, hrows]
  refine ⟨h, List.nodup_range, fun i => rfl, fun d => rfl, fun ops hops => ?_, fun ops hops => ?_⟩
  · rw [C120_to_flat_again _ ops hops, h]
  · have key : ∀ s : Session, (s.run ops).conditions = s.conditions := by
      intro s
      unfold Session.run
      induction ops generalizing s with
      | nil => rfl
      | cons op ops ih =>
        rw [List.foldl_cons, ih (fun key text hm => hops key text (List.mem_cons_of_mem _ hm))]
        exact session_conditions s op fun key text he => hops key text (he ▸ List.mem_cons_self)
    exact key _

/-- **C120** the dictionary of `extract_condition_texts` is that of the reader: a change of it is seen by the next call, and nowhere else -/
theorem C120_conditions (s : Session) (key text key' : PyStr) :
    dictGet key' (s.apply (.setCondition key text)).1.reader.extractConditionTexts =
      (if key = key' then some text else dictGet key' s.reader.extractConditionTexts) ∧
    (s.apply (.setCondition key text)).1.reader.rows = s.reader.rows ∧
    (∀ i, (s.apply (.setCondition key text)).1.flat? i = s.flat? i) ∧ ∀ d, (s.apply (.setCondition key text)).1.deep? d = s.deep? d := by
  refine ⟨?_, rfl, fun i => rfl, fun d => rfl⟩
  exact dictGet_dictSet key' key text s.conditions

/-- **C120** an assignment to an attribute of a line that a flat AHB refers to (what the assignment does to the line: `C114_assign`): the line
has changed in the reader and in all flat AHBs that refer to it. If the value is refused, nothing changes. -/
theorem C120_assign_line (s : Session) (i : Nat) (hi : i < s.flats.length) (r : Nat) (a : LineAttr) :
    (∀ l, (s.lines r).assign a = .ok l → (s.apply (.editFlat i (.assign r a))).2 = none ∧
      (s.apply (.editFlat i (.assign r a))).1.reader.rows = s.rows.map (fun k => if k = r then l else s.lines k) ∧
      ∀ (j m : Nat) (refs : List Nat), s.flats[j]? = some (m, refs) → (s.apply (.editFlat i (.assign r a))).1.flat? j =
        some ⟨s.metas m, refs.map fun k => if k = r then l else s.lines k⟩) ∧
    ∀ e, (s.lines r).assign a = .error e → (s.apply (.editFlat i (.assign r a))).2 = some e ∧
      (s.apply (.editFlat i (.assign r a))).1.reader = s.reader ∧ ∀ j, (s.apply (.editFlat i (.assign r a))).1.flat? j = s.flat? j := by
  obtain ⟨f, hf⟩ : ∃ f, s.flats[i]? = some f := ⟨_, List.getElem?_eq_getElem hi⟩
  have hset : s.flats.set i (f.1, f.2) = s.flats := by
    apply List.ext_getElem?
    intro k
    rw [List.getElem?_set]
    split
    · rename_i hk
      subst hk
      simp only [hi, if_true, hf]
    · rfl
  refine ⟨fun l hl => ?_, fun e he => ?_⟩
  · simp only [Session.apply, hf, FlatObj.apply, hl, hset]
    refine ⟨trivial, rfl, fun j m refs hj => ?_⟩
    simp only [Session.flat?, hj, Option.map_some]
  · simp only [Session.apply, hf, FlatObj.apply, he, hset]
    exact ⟨trivial, trivial, fun j => trivial⟩

/-- **C120** an assignment to an attribute of the meta information, through a flat AHB or through a deep AHB that was converted from it: it is
seen in both. If the value is refused, nothing changes. -/
theorem C120_assign_meta (s : Session) (d i : Nat) (h : s.Converted d i) (f : FlatAhb) (deep : DeepAhb) (hf : s.flat? i = some f)
    (hd : s.deep? d = some deep) (a : MetaAttr) (op : SessionOp) (hop : op = .assignFlatMeta i a ∨ op = .assignDeepMeta d a) :
    (∀ v, f.ahbMeta.assign a = .ok v → (s.apply op).2 = none ∧ (s.apply op).1.flat? i = some { f with ahbMeta := v } ∧
      (s.apply op).1.deep? d = some { deep with ahbMeta := v }) ∧
    ∀ e, f.ahbMeta.assign a = .error e → s.apply op = (s, some e) := by
  obtain ⟨m, refs, groups, h1, h2⟩ := h
  simp only [Session.flat?, h1, Option.map_some, Option.some.injEq] at hf
  simp only [Session.deep?, h2, Option.map_some, Option.some.injEq] at hd
  subst hf hd
  have ha : s.apply op = s.assignMeta m a := by rcases hop with rfl | rfl <;> simp only [Session.apply, h1, h2]
  rw [ha]
  refine ⟨fun v hv => ?_, fun e he => ?_⟩
  · simp only at hv
    simp only [Session.assignMeta, hv]
    refine ⟨trivial, ?_, ?_⟩
    · simp only [Session.flat?, h1, Option.map_some, if_true]
    · simp only [Session.deep?, h2, Option.map_some, if_true]
  · simp only at he
    simp only [Session.assignMeta, he]

/-! ## the objects are not independent -/

/-- a reader with two lines -/
def exSessionReader : CsvReader :=
  { rows := [{ segmentCode := some py!"UNH", dataElement := some py!"0062", ahbExpression := some py!"Muss" }, {}]
    pruefidentifikator := py!"11042"
    bedingungen := [(py!"1", py!"Wenn vorhanden")] }

/-- **C120** the claim "what is done with one flat AHB is not seen in another one" is false: an assignment to a line -/
theorem C120_lines_not_independent : ¬ ∀ (s : Session) (i j : Nat) (e : FlatEdit), s.Reachable → i ≠ j →
    (s.apply (.editFlat i e)).1.flat? j = s.flat? j := by
  intro h
  have := h _ 0 1 (.assign 0 (.ahbExpression (some py!"Kann"))) ⟨exSessionReader, [.toFlat, .toFlat], rfl⟩ (by decide)
  revert this
  decide +kernel

/-- **C120** the claim "what is done with a deep AHB is not seen in the flat AHB" is false: an assignment to an attribute of the meta
information -/
theorem C120_meta_not_independent : ¬ ∀ (s : Session) (i d : Nat) (a : MetaAttr), s.Reachable →
    (s.apply (.assignDeepMeta d a)).1.flat? i = s.flat? i := by
  intro h
  have := h _ 0 0 (.description (some py!"Anmeldung"))
    ⟨{ exSessionReader with rows := [] }, [.toFlat, .toDeep 0 (fun _ => .ok none) (fun _ => []) (.mk none py!"UNH" none)], rfl⟩
  revert this
  decide +kernel

/-! ## the premises of the theorems -/

/-- two flat AHBs, and a deep AHB that was converted from the second one -/
def exSession : Session :=
  (Session.ofReader { exSessionReader with rows := [] }).run
    [.toFlat, .toFlat, .toDeep 1 (fun _ => .ok none) (fun _ => []) (.mk none py!"UNH" none)]

example : exSession.Reachable ∧ exSession.Converted 0 1 ∧ ¬ exSession.Converted 0 0 := by
  refine ⟨⟨_, _, rfl⟩, ⟨1, [], [], by decide +kernel, by decide +kernel⟩, ?_⟩
  rintro ⟨m, refs, groups, h1, h2⟩
  have e1 : exSession.flats[0]? = some (0, []) := by decide +kernel
  have e2 : exSession.deeps[0]? = some (1, []) := by decide +kernel
  rw [e1] at h1
  rw [e2] at h2
  injection h1 with h1
  injection h2 with h2
  injection h1 with h1
  injection h2 with h2
  rw [← h1] at h2
  cases h2

example : ∃ f, (Session.ofReader exSessionReader).reader.toFlatAhb = .ok f ∧ f.lines.length = 1 := ⟨_, rfl, by decide +kernel⟩

/-- a conversion that fails writes the version nevertheless -/
example : ∃ s : Session, s.Reachable ∧
    ((s.flat? 0).map fun f => f.ahbMeta.mausVersion) = some none ∧
    (s.apply (.toDeep 0 (fun _ => .error .valueError) (fun _ => []) (.mk none py!"UNH" none))).2 = some .valueError ∧
    (((s.apply (.toDeep 0 (fun _ => .error .valueError) (fun _ => []) (.mk none py!"UNH" none))).1.flat? 0).map
      fun f => f.ahbMeta.mausVersion) = some (some mausVersion) :=
  ⟨(Session.ofReader exSessionReader).run [.toFlat, .assignFlatMeta 0 (.mausVersion none)], ⟨_, _, rfl⟩, by decide +kernel, by decide +kernel,
    by decide +kernel⟩

end Verif
