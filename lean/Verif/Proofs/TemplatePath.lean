import Verif.Spec.TemplatePath
import Verif.Props.MigXml
import Verif.Props.Matching
import Verif.Props.Components
import Verif.Model.Cli
import Verif.Props.DetermineLocations
/-!
# Discriminators of a deep AHB and the template
-/

namespace Verif

theorem levelOf_path {above : List Xml} {e : Xml} {l : EdifactStackLevel} (h : LevelOf above e l) :
    EdifactStack.levelPath l = py!"[\"" ++ l.name ++ py!"\"]" ++ (if e.tag = py!"class" then py!"[0]" else []) ∧
      NameInPath above e l.name := by
  obtain ⟨h1, h2, h3⟩ := h
  refine ⟨?_, h3⟩
  unfold EdifactStack.levelPath
  rw [h2]
  by_cases hc : e.tag = py!"class"
  · simp [hc, h1.2 hc]
  · cases hg : l.isGroupable with
    | true => exact absurd (h1.1 hg) hc
    | false => simp [hc]

theorem flatMap_levels (ls : List EdifactStackLevel) (es : List Xml) (hlen : ls.length = es.length)
    (h : ∀ (i : Nat) (e : Xml) (l : EdifactStackLevel), es[i]? = some e → ls[i]? = some l →
      EdifactStack.levelPath l = py!"[\"" ++ l.name ++ py!"\"]" ++ (if e.tag = py!"class" then py!"[0]" else [])) :
    ls.flatMap EdifactStack.levelPath = ((ls.map (·.name)).zip es).flatMap fun s : PyStr × Xml =>
      py!"[\"" ++ s.1 ++ py!"\"]" ++ if s.2.tag = py!"class" then py!"[0]" else [] := by
  induction ls generalizing es with
  | nil => simp
  | cons l ls ih =>
    cases es with
    | nil => cases hlen
    | cons e es =>
      have h0 := h 0 e l rfl rfl
      have h1 := ih es (by simpa using hlen) fun i e' l' he hl => h (i + 1) e' l' (by simpa using he) (by simpa using hl)
      simp only [List.flatMap_cons, List.map_cons, List.zip_cons_cons, h0, h1]

theorem stack_leadsTo {root : Xml} {path : List Nat} {es : List Xml} {st : EdifactStack} (h : lineage root path = some es)
    (hs : elementToEdifactStack root path = .ok st) : LeadsTo root st.toJsonPath path es := by
  obtain ⟨hlen, hl⟩ := C50_levels h hs
  refine ⟨h, st.levels.map (·.name), by simpa using hlen, ?_, ?_⟩
  · intro i e n he hn
    rw [List.getElem?_map] at hn
    cases hli : st.levels[i]? with
    | none => rw [hli] at hn; cases hn
    | some l =>
      rw [hli] at hn
      cases hn
      exact (levelOf_path (hl i e l he hli)).2
  · rw [toJsonPath_eq, templatePath]
    congr 1
    exact flatMap_levels _ _ hlen fun i e l he hli => (levelOf_path (hl i e l he hli)).1

theorem location_leadsTo {root : Xml} {loc : AhbLocation} {st : EdifactStack} (h : getEdifactStack root loc = .ok st) :
    ∃ path msg classes tail, LeadsTo root st.toJsonPath path (msg :: classes ++ tail) ∧ IsClass py!"/" msg ∧
      List.Forall₂ (fun (l : AhbLocationLayer) e => IsClass l.ref e) loc.layers classes ∧
      (loc.dataElementId = none → tail = []) ∧
      ∀ d, loc.dataElementId = some d → ∃ seg field, tail = seg ++ [field] ∧ IsField d field ∧ ∀ s ∈ seg, s.tag = py!"class" := by
  unfold getEdifactStack at h
  cases hn : getElement root loc with
  | error e => rw [hn] at h; cases h
  | ok n =>
    rw [hn] at h
    have h : elementToEdifactStack root n.path = .ok st := h
    obtain ⟨msg, classes, tail, h1, _, h3, h4, h5, h6⟩ := C48_lineage hn
    refine ⟨n.path, msg, classes, tail, stack_leadsTo h1 h, h3, h4, h5, fun d hd => ?_⟩
    obtain ⟨seg, field, h7, h8, h9⟩ := h6 d hd
    refine ⟨seg, field, h7, h8, fun s hs => ?_⟩
    rcases h9 with rfl | ⟨s', code, rfl, _, _, hc⟩
    · cases hs
    · rw [List.mem_singleton] at hs
      subst hs
      exact hc.1

theorem classes_tag {layers : List AhbLocationLayer} {classes : List Xml}
    (h : List.Forall₂ (fun (l : AhbLocationLayer) e => IsClass l.ref e) layers classes) : ∀ e ∈ classes, e.tag = py!"class" := by
  induction h with
  | nil => simp
  | cons h _ ih =>
    intro e he
    rcases List.mem_cons.1 he with rfl | he
    · exact h.1
    · exact ih e he

theorem location_found {root document : Xml} {m : Nat} (hm : OnlyChild (IsClass py!"/") root m)
    (hc : root.children[m]? = some document) {loc : AhbLocation} {st : EdifactStack} (h : getEdifactStack root loc = .ok st) :
    ∃ path es e, LeadsTo root st.toJsonPath (m :: path) (es ++ [e]) ∧ Found document loc path e := by
  unfold getEdifactStack at h
  cases hn : getElement root loc with
  | error e => rw [hn] at h; cases h
  | ok n =>
    rw [hn] at h
    have h : elementToEdifactStack root n.path = .ok st := h
    obtain ⟨msg, classes, tail, h1, h2, _⟩ := C48_lineage hn
    obtain ⟨path, hp, hf⟩ := C48_walk hm hc hn
    obtain ⟨es, hes⟩ := List.getLast?_eq_some_iff.1 h2
    refine ⟨path, es, n.elem, ?_, hf⟩
    rw [← hp, ← hes]
    exact stack_leadsTo h1 h

/-- where a stack of a run comes from -/
theorem run_stack_some {root : Xml} {r : Run} {st : EdifactStack} (h : r.stack (migLookup root) = some st) :
    ∃ loc, getEdifactStack root loc = .ok st ∧ (loc = r.location ∨ ∃ x ∈ r.2, loc = x.2) := by
  unfold Run.stack migLookup at h
  cases h1 : getEdifactStack root r.location with
  | ok s =>
    rw [h1] at h
    cases h
    exact ⟨_, h1, .inl rfl⟩
  | error e =>
    rw [h1] at h
    simp only [Except.map] at h
    split at h
    · rename_i l loc y rest hr
      cases h2 : getEdifactStack root loc with
      | ok s =>
        rw [h2] at h
        cases h
        exact ⟨loc, h2, .inr ⟨_, by rw [hr]; exact List.mem_cons_self, rfl⟩⟩
      | error e => rw [h2] at h; cases h
    · cases h

theorem run_stack_none {root : Xml} {r : Run} (h : r.stack (migLookup root) = none) :
    ∃ e, getEdifactStack root r.location = .error e := by
  unfold Run.stack migLookup at h
  cases h1 : getEdifactStack root r.location with
  | ok s => rw [h1] at h; cases h
  | error e => exact ⟨e, rfl⟩

/-- the locations of a run only differ in the qualifier -/
theorem run_location_eq {located : List (AhbLine × AhbLocation)} {r : Run} (hr : r ∈ runsOf located) {loc : AhbLocation}
    (h : loc = r.location ∨ ∃ x ∈ r.2, loc = x.2) : loc.layers = r.1.layers ∧ loc.dataElementId = r.1.dataElementId := by
  obtain ⟨_, hk⟩ := (C15_runs located).2.1 r hr
  have hx : ∀ x ∈ r.2, x.2.layers = r.1.layers ∧ x.2.dataElementId = r.1.dataElementId := fun x hx => ⟨(hk x hx).1, (hk x hx).2.2.1⟩
  rcases h with rfl | ⟨x, hm, rfl⟩
  · unfold Run.location
    split
    · rename_i l loc he
      exact hx (l, loc) (by rw [he]; exact List.mem_singleton_self _)
    · exact ⟨rfl, rfl⟩
  · exact hx x hm

/-- the locations of a run are those of its lines -/
theorem run_located {sgh : Sgh} {flat : FlatAhb} {located : List (AhbLine × AhbLocation)}
    (hl : determineLocations sgh flat.lines = .ok located) {r : Run} (hr : r ∈ runsOf located) {loc : AhbLocation}
    (h : loc = r.location ∨ ∃ x ∈ r.2, loc = x.2) : ∃ line ∈ r.lines, LocatedAt sgh flat line loc := by
  obtain ⟨hflat, hkeys, _⟩ := C15_runs located
  obtain ⟨hne, hk⟩ := hkeys r hr
  have hmem : ∀ x ∈ r.2, x ∈ located := by
    intro x hx
    rw [← hflat, List.mem_flatMap]
    exact ⟨r, hr, hx⟩
  have hline : ∀ x ∈ r.2, x.1 ∈ r.lines := fun x hx => List.mem_map_of_mem hx
  have own : ∀ x ∈ r.2, LocatedAt sgh flat x.1 x.2 := fun x hx =>
    ⟨located, x.2, hl, hmem x hx, rfl, rfl, rfl, .inl rfl⟩
  rcases h with rfl | ⟨x, hx, rfl⟩
  · by_cases h1 : ∃ x, r.2 = [x]
    · obtain ⟨x, hx⟩ := h1
      have hx' : x ∈ r.2 := by rw [hx]; exact List.mem_singleton_self _
      have hl' : r.location = x.2 := by unfold Run.location; rw [hx]
      rw [hl']
      exact ⟨x.1, hline x hx', own x hx'⟩
    · obtain ⟨x, hx⟩ := List.exists_mem_of_ne_nil _ hne
      have hl' : r.location = r.1 := by
        unfold Run.location
        split
        · rename_i l loc hr2
          exact absurd ⟨_, hr2⟩ h1
        · rfl
      rw [hl']
      obtain ⟨k1, k2, k3, k4⟩ := hk x hx
      exact ⟨x.1, hline x hx, located, x.2, hl, hmem x hx, k1.symm, k2.symm, k3.symm, .inr k4⟩
  · exact ⟨x.1, hline x hx, own x hx⟩

/-- every item stems from a run -/
theorem createdItems_run {reader : MigLookup} {posStr : AhbLocation → PyStr} {x : DocItem} :
    ∀ (runs : List Run) (used : List PyStr), x ∈ createdItems reader posStr used runs →
      ∃ r ∈ runs, ∃ used', x ∈ r.created reader posStr used' := by
  intro runs
  induction runs with
  | nil => intro used h; cases h
  | cons r runs ih =>
    intro used h
    rw [createdItems, List.mem_append] at h
    rcases h with h | h
    · exact ⟨r, by simp, used, h⟩
    · obtain ⟨r', hr', h'⟩ := ih _ h
      exact ⟨r', by simp [hr'], h'⟩

theorem created_dataElement {reader : MigLookup} {posStr : AhbLocation → PyStr} {r : Run} {used : List PyStr} {de : DataElement}
    (h : DocItem.dataElement de ∈ r.created reader posStr used) :
    mergeLinesWithSameDataElement r.lines (r.stack reader) = .ok de := by
  unfold Run.created at h
  split at h
  · cases h
  · split at h
    · unfold Run.createdDataElement at h
      split at h
      · split at h
        · rename_i de' hde'
          simp at h
          rw [hde', h]
        · cases h
      · cases h
    · exfalso
      rcases List.mem_append.1 h with h | h
      · unfold Run.openedGroup at h
        split at h <;> simp at h
      · unfold Run.createdSegment at h
        split at h <;> simp at h

theorem created_group {reader : MigLookup} {posStr : AhbLocation → PyStr} {r : Run} {used : List PyStr} {d : Option PyStr} {e : PyStr}
    {i : Option Int} (h : DocItem.group d e i ∈ r.created reader posStr used) :
    r.hasDataElement = false ∧ ∃ first layer st, r.lines.head? = some first ∧ r.location.layers.getLast? = some layer ∧
      r.stack reader = some st ∧ first.segmentGroupKey = layer.segmentGroupKey ∧ d = some st.toJsonPath ∧ i = first.index ∧
      ∃ e', first.ahbExpression = some e' ∧ e = trim e' := by
  unfold Run.created at h
  split at h
  · cases h
  · split at h
    · unfold Run.createdDataElement at h
      split at h
      · split at h <;> simp at h
      · cases h
    · rename_i hde
      refine ⟨by simpa using hde, ?_⟩
      rcases List.mem_append.1 h with h | h
      · unfold Run.openedGroup at h
        split at h
        · rename_i path first hp hf
          simp only [Option.toList_some, List.mem_singleton, DocItem.group.injEq] at h
          unfold Run.openedPath at hp
          split at hp
          · rename_i first' last layer st h1 h2 h3 h4
            split at hp
            · rename_i hc
              cases hp
              rw [hf] at h1
              cases h1
              obtain ⟨e', he'⟩ := Option.ne_none_iff_exists'.1 hc.2.2.2
              exact ⟨first, layer, st, hf, h3, h4, hc.1, h.1, h.2.2, e', he', by rw [h.2.1, he']; rfl⟩
            · cases hp
          · cases hp
        · simp at h
      · unfold Run.createdSegment at h
        split at h <;> simp at h

theorem created_segment {reader : MigLookup} {posStr : AhbLocation → PyStr} {r : Run} {used : List PyStr} {d : Option PyStr} {e : PyStr}
    {i : Option Int} {n s : Option PyStr} (h : DocItem.segment d e i n s ∈ r.created reader posStr used) :
    r.hasDataElement = false ∧ d = some (match r.stack reader with
      | some st => st.toJsonPath
      | none => posStr r.location) := by
  unfold Run.created at h
  split at h
  · cases h
  · split at h
    · unfold Run.createdDataElement at h
      split at h
      · split at h <;> simp at h
      · cases h
    · rename_i hde
      refine ⟨by simpa using hde, ?_⟩
      rcases List.mem_append.1 h with h | h
      · unfold Run.openedGroup at h
        split at h <;> simp at h
      · unfold Run.createdSegment at h
        split at h
        · simp only [Option.toList_some, List.mem_singleton, DocItem.segment.injEq] at h
          exact h.1
        · simp at h

theorem lineage_length {root : Xml} : ∀ {path : List Nat} {es : List Xml}, lineage root path = some es → es.length = path.length := by
  intro path
  induction path generalizing root with
  | nil => intro es h; cases h; rfl
  | cons i path ih =>
    intro es h
    unfold lineage at h
    split at h
    · cases h
    · rename_i c hc
      cases hl : lineage c path with
      | none => rw [hl] at h; cases h
      | some l => rw [hl] at h; cases h; simp [ih hl]

theorem lineage_take {root : Xml} : ∀ {p q : List Nat} {es : List Xml}, lineage root (p ++ q) = some es →
    lineage root p = some (es.take p.length) := by
  intro p
  induction p generalizing root with
  | nil => intro q es _; simp [lineage]
  | cons i p ih =>
    intro q es h
    rw [List.cons_append] at h
    unfold lineage at h ⊢
    cases hc : root.children[i]? with
    | none => rw [hc] at h; cases h
    | some c =>
      rw [hc] at h
      simp only at h ⊢
      cases hl : lineage c (p ++ q) with
      | none => rw [hl] at h; cases h
      | some l =>
        rw [hl] at h
        cases h
        rw [ih hl]
        rfl

theorem nameOf_unique {e : Xml} {n m : PyStr} (hn : NameOf e n) (hm : NameOf e m) : n = m := by
  rw [← ownName_iff] at hn hm
  rw [hn] at hm
  cases hm
  rfl

/-- with a name of its own, this is the name in paths -/
theorem nameInPath_own {above : List Xml} {e : Xml} {n : PyStr} (h : NameInPath above e n) (he : ∃ m, NameOf e m) : NameOf e n := by
  obtain ⟨before, named, after, h1, h2, h3⟩ := h
  rcases List.eq_nil_or_concat after with rfl | ⟨a, x, rfl⟩
  · have := List.append_inj_right' h1 rfl
    cases this
    exact h2
  · exfalso
    rw [List.concat_eq_append] at h1 h3
    have h1' : above ++ [e] = (before ++ named :: a) ++ [x] := by rw [h1]; simp
    have := List.append_inj_right' h1' rfl
    cases this
    exact h3 e (by simp) he

/-- the stack of a path -/
def stackOf (steps : List (PyStr × Xml)) : EdifactStack :=
  ⟨steps.map fun s => { name := s.1, isGroupable := decide (s.2.tag = py!"class"), index := none }⟩

theorem templatePath_stack (steps : List (PyStr × Xml)) : templatePath steps = (stackOf steps).toJsonPath := by
  rw [toJsonPath_eq, templatePath, stackOf]
  congr 1
  rw [List.flatMap_map]
  congr 1
  funext s
  unfold EdifactStack.levelPath
  by_cases h : s.2.tag = py!"class" <;> simp [h]

theorem templatePath_names {a b : List (PyStr × Xml)} (ha : ∀ s ∈ a, s.1 ≠ [] ∧ ∀ c ∈ s.1, c ≠ '[' ∧ c ≠ ']')
    (hb : ∀ s ∈ b, s.1 ≠ [] ∧ ∀ c ∈ s.1, c ≠ '[' ∧ c ≠ ']') (h : templatePath a = templatePath b) :
    a.map Prod.fst = b.map Prod.fst := by
  have key : ∀ l : List (PyStr × Xml), (∀ s ∈ l, s.1 ≠ [] ∧ ∀ c ∈ s.1, c ≠ '[' ∧ c ≠ ']') →
      ∀ x ∈ (stackOf l).levels, x.NameOk ∧ ∀ i, x.index = some i → 0 ≤ i := by
    intro l hl x hx
    simp only [stackOf, List.mem_map] at hx
    obtain ⟨s, hs, rfl⟩ := hx
    exact ⟨hl s hs, fun i hi => by cases hi⟩
  have names : ∀ l : List (PyStr × Xml), (∀ s ∈ l, s.1 ≠ [] ∧ ∀ c ∈ s.1, c ≠ '[' ∧ c ≠ ']') →
      (EdifactStack.fromJsonPath (stackOf l).toJsonPath).levels.map (·.name) = l.map Prod.fst := by
    intro l hl
    rw [C36_normalisation _ (key l hl)]
    simp only [stackOf, List.map_map]
    refine List.map_congr_left fun s _ => ?_
    simp only [Function.comp]
    cases decide (s.2.tag = py!"class") <;> rfl
  rw [templatePath_stack, templatePath_stack] at h
  rw [← names a ha, ← names b hb, h]

theorem leadsTo_unique {root : Xml} (hroot : DistinctNames root) {d : PyStr} {p q : List Nat} {es fs : List Xml}
    (hp : LeadsTo root d p es) (hq : LeadsTo root d q fs) : p = q := by
  obtain ⟨hp, ns, hn, hns, hd⟩ := hp
  obtain ⟨hq, ms, hm, hms, hd'⟩ := hq
  obtain ⟨hname, hdist⟩ := hroot
  have own : ∀ {p : List Nat} {es : List Xml} {ns : List PyStr}, lineage root p = some es → ns.length = es.length →
      (∀ (i : Nat) (e : Xml) (n : PyStr), es[i]? = some e → ns[i]? = some n → NameInPath (es.take i) e n) →
      (∀ (i : Nat) (e : Xml) (n : PyStr), es[i]? = some e → ns[i]? = some n → NameOf e n) ∧
      ∀ s ∈ ns.zip es, s.1 ≠ [] ∧ ∀ c ∈ s.1, c ≠ '[' ∧ c ≠ ']' := by
    intro p es ns hp hn hns
    have h1 : ∀ (i : Nat) (e : Xml) (n : PyStr), es[i]? = some e → ns[i]? = some n → NameOf e n := by
      intro i e n he hni
      obtain ⟨m, hm, _⟩ := hname p es hp e (List.mem_of_getElem? he)
      exact nameInPath_own (hns i e n he hni) ⟨m, hm⟩
    refine ⟨h1, fun s hs => ?_⟩
    obtain ⟨i, hi⟩ := List.getElem?_of_mem hs
    rw [List.getElem?_zip_eq_some] at hi
    obtain ⟨m, hm, h2⟩ := hname p es hp s.2 (List.mem_of_getElem? hi.2)
    rw [nameOf_unique (h1 i _ _ hi.2 hi.1) hm]
    exact h2
  obtain ⟨a1, a2⟩ := own hp hn hns
  obtain ⟨b1, b2⟩ := own hq hm hms
  have hnm : ns = ms := by
    have := templatePath_names a2 b2 (hd.symm.trans hd')
    rwa [List.map_fst_zip (by omega), List.map_fst_zip (by omega)] at this
  subst hnm
  have lp := lineage_length hp
  have lq := lineage_length hq
  have take : ∀ k, k ≤ ns.length → p.take k = q.take k := by
    intro k
    induction k with
    | zero => intro _; rfl
    | succ k ih =>
      intro hk
      have hk' := ih (by omega)
      have kp : k < p.length := by omega
      have kq : k < q.length := by omega
      have ke : k < es.length := by omega
      have kf : k < fs.length := by omega
      have hp' : lineage root (p.take (k + 1)) = some (es.take (k + 1)) := by
        have := lineage_take (p := p.take (k + 1)) (q := p.drop (k + 1)) (es := es) (root := root) (by rwa [List.take_append_drop])
        rwa [List.length_take, Nat.min_eq_left (by omega)] at this
      have hq' : lineage root (q.take (k + 1)) = some (fs.take (k + 1)) := by
        have := lineage_take (p := q.take (k + 1)) (q := q.drop (k + 1)) (es := fs) (root := root) (by rwa [List.take_append_drop])
        rwa [List.length_take, Nat.min_eq_left (by omega)] at this
      rw [List.take_succ_eq_append_getElem kp] at hp' ⊢
      rw [List.take_succ_eq_append_getElem kq] at hq' ⊢
      rw [List.take_succ_eq_append_getElem ke] at hp'
      rw [List.take_succ_eq_append_getElem kf] at hq'
      rw [← hk'] at hq'
      have kn : k < ns.length := by omega
      have := hdist _ _ _ _ _ _ _ _ hp' hq'
        (a1 k _ ns[k] (List.getElem?_eq_getElem ke) (List.getElem?_eq_getElem kn))
        (b1 k _ ns[k] (List.getElem?_eq_getElem kf) (List.getElem?_eq_getElem kn))
      rw [hk', this]
  have := take ns.length (Nat.le_refl _)
  rwa [List.take_of_length_le (by omega), List.take_of_length_le (by omega)] at this

end Verif
