import Verif.Spec.UniqueFields
import Verif.Proofs.TemplatePath
import Verif.Props.TemplatePath
import Verif.Proofs.DeepSuccess
import Verif.Proofs.LocationXml
/-! helper lemmas for C126 -/

namespace Verif

/-! ## the codes of locations -/

/-- the codes of a location that `determine_locations` returns -/
def CodesOk (loc : AhbLocation) : Prop :=
  (∀ c, loc.segmentCode = some c → IsThreeLetterCode c) ∧ ∀ l ∈ loc.layers, ∀ k, l.segmentGroupKey = some k → IsSgKey k

/-- the keys of layers -/
def KeysOk (layers : List AhbLocationLayer) : Prop := ∀ l ∈ layers, ∀ k, l.segmentGroupKey = some k → IsSgKey k

theorem layerNew_key {k o q : Option PyStr} {l : AhbLocationLayer} (h : AhbLocationLayer.new k o q = .ok l) :
    ∀ x, l.segmentGroupKey = some x → IsSgKey x := by
  obtain ⟨o', _, rfl⟩ := layerNew_ok h
  exact (optMatches_iff sgKeyRe_iff _).1 (layerNew_matches h).1

theorem KeysOk.append {ls : List AhbLocationLayer} {l : AhbLocationLayer} (h : KeysOk ls) (hl : ∀ k, l.segmentGroupKey = some k → IsSgKey k) :
    KeysOk (ls ++ [l]) := by
  intro x hx
  rcases List.mem_append.1 hx with hx | hx
  · exact h x hx
  · rw [List.mem_singleton.1 hx]
    exact hl

theorem KeysOk.sub {ls ls' : List AhbLocationLayer} (h : KeysOk ls) (hs : ls' ⊆ ls) : KeysOk ls' := fun x hx => h x (hs hx)

/-- the invariant of the loop -/
def LocState.Codes (st : LocState) : Prop := KeysOk st.layers ∧ ∀ x ∈ st.result, CodesOk x.2

theorem appendLocation_codesOk {st line seg layers st'} (h : appendLocation st line seg layers = .ok st') (hst : st.Codes) (hl : KeysOk layers) :
    st'.Codes := by
  simp only [appendLocation, bind, Except.bind] at h
  split at h
  · cases h
  · rename_i loc hloc
    cases h
    refine ⟨hl, fun x hx => ?_⟩
    rcases List.mem_append.1 hx with hx | hx
    · exact hst.2 x hx
    · rw [List.mem_singleton.1 hx]
      have hm := locationNew_matches hloc
      obtain ⟨rfl, _⟩ := locationNew_ok hloc
      exact ⟨(optMatches_iff segmentCode3Re_iff _).1 hm.1, hl⟩

theorem initialLayers_keys {sgh st qual r} (h : initialLayers sgh st qual = .ok r) (hst : KeysOk st.layers) : KeysOk r := by
  unfold initialLayers at h
  simp only [bind, Except.bind] at h
  split at h
  · cases h
  · split at h
    · split at h
      · cases h
      · rename_i nl hnl
        cases h
        exact (hst.sub (List.dropLast_subset _)).append (layerNew_key hnl)
    · cases h
      exact hst

theorem locStep_codesOk {sgh st it st'} (h : locStep sgh st it = .ok st') (hst : st.Codes) : st'.Codes := by
  obtain ⟨⟨line, c⟩, seg, qual⟩ := it
  simp only [locStep, bind, Except.bind] at h
  split at h
  · cases h
  · rename_i base hbase
    have hb := initialLayers_keys hbase hst.1
    cases c with
    | stay => exact appendLocation_codesOk h hst hb
    | moveToNeighbourSameKey =>
      dsimp only at h
      split at h
      · cases h
      · rename_i ls hls
        split at h
        · cases h
        · rename_i nl hnl
          obtain ⟨_, rfl⟩ := pyPop_ok hls
          exact appendLocation_codesOk h hst ((hb.sub (List.dropLast_subset _)).append (layerNew_key hnl))
    | diveIntoSubGroup =>
      dsimp only at h
      split at h
      · cases h
      · rename_i nl hnl
        exact appendLocation_codesOk h hst (hb.append (layerNew_key hnl))
    | leaveToParentAndDive =>
      dsimp only at h
      split at h
      · cases h
      · split at h
        · cases h
        · split at h
          · cases h
          · split at h
            · cases h
            · split at h
              · cases h
              · rename_i ls hls
                split at h
                · cases h
                · rename_i nl hnl
                  exact appendLocation_codesOk h hst ((hb.sub (leavePops_ok hls).1.subset).append (layerNew_key hnl))
    | leaveToParent => cases h
    | moveToNeighbourDifferentKey => cases h; exact ⟨hb, hst.2⟩

theorem located_codesOk {sgh lines located} (h : determineLocations sgh lines = .ok located) : ∀ x ∈ located, CodesOk x.2 := by
  rw [determineLocations_eq] at h
  simp only [bind, Except.bind] at h
  split at h
  · cases h
  · rename_i start hstart
    split at h
    · cases h
    · rename_i st hst
      cases h
      have : ∀ (l : List ((AhbLine × Change) × Option PyStr × Option PyStr)) (s s' : LocState),
          l.foldlM (locStep sgh) s = .ok s' → s.Codes → s'.Codes := by
        intro l
        induction l with
        | nil => intro s s' hs hall; cases hs; exact hall
        | cons it l ih =>
          intro s s' hs hall
          rw [List.foldlM_cons] at hs
          simp only [bind, Except.bind] at hs
          split at hs
          · cases hs
          · rename_i s1 hs1
            exact ih s1 s' hs (locStep_codesOk hs1 hall)
      exact (this _ _ _ hst ⟨fun x hx => by rw [List.mem_singleton.1 hx]; exact layerNew_key hstart, by simp⟩).2

/-! ## the same path -/

theorem ref_groupRef (l : AhbLocationLayer) : l.ref = groupRef l.segmentGroupKey := by
  unfold AhbLocationLayer.ref groupRef
  cases l.segmentGroupKey with
  | none => rfl
  | some s => cases s <;> rfl

theorem not_both {s : PyStr} (h1 : IsThreeLetterCode s) (h2 : IsSgKey s) : False := by
  obtain ⟨d, hd, hdig, rfl⟩ := h2
  obtain ⟨hlen, hall⟩ := h1
  obtain ⟨c, rfl⟩ : ∃ c, d = [c] := by
    match d, hd, hlen with
    | [c], _, _ => exact ⟨c, rfl⟩
    | _ :: _ :: _, _, h => simp at h
  have hc := hall c (by simp)
  have hd' := hdig c (by simp)
  have : ∀ c ∈ capitals, isDigit c = false := by decide +kernel
  rw [this c hc] at hd'
  cases hd'

/-- the reference of a layer is that of the message or a segment group key -/
theorem ref_cases {l : AhbLocationLayer} (h : ∀ k, l.segmentGroupKey = some k → IsSgKey k) : l.ref = py!"UNH" ∨ IsSgKey l.ref := by
  rw [ref_groupRef]
  cases hk : l.segmentGroupKey with
  | none => exact .inl rfl
  | some s =>
    cases s with
    | nil => exact .inl rfl
    | cons c s => exact .inr (h _ hk)

theorem groups_of_classes {ls ls' : List AhbLocationLayer} {cs : List Xml}
    (h : List.Forall₂ (fun (l : AhbLocationLayer) e => IsClass l.ref e) ls cs) (h' : List.Forall₂ (fun (l : AhbLocationLayer) e => IsClass l.ref e) ls' cs) :
    (ls.map fun l => groupRef l.segmentGroupKey) = ls'.map fun l => groupRef l.segmentGroupKey := by
  induction h generalizing ls' with
  | nil => cases h'; rfl
  | cons h1 _ ih =>
    cases h' with
    | cons h2 h3 =>
      rw [List.map_cons, List.map_cons, ih h3]
      congr 1
      rw [← ref_groupRef, ← ref_groupRef]
      exact Option.some.inj (h1.2.symm.trans h2.2)

theorem last_class {ls : List AhbLocationLayer} {cs : List Xml} {s : Xml}
    (h : List.Forall₂ (fun (l : AhbLocationLayer) e => IsClass l.ref e) ls (cs ++ [s])) : ∃ l ∈ ls, IsClass l.ref s := by
  generalize hx : cs ++ [s] = xs at h
  have hs : s ∈ xs := by rw [← hx]; simp
  clear hx
  induction h with
  | nil => cases hs
  | cons h1 _ ih =>
    rcases List.mem_cons.1 hs with rfl | hs
    · exact ⟨_, by simp, h1⟩
    · obtain ⟨l, hl, h⟩ := ih hs
      exact ⟨l, by simp [hl], h⟩

/-- the elements on the way to a field, with the segment code -/
theorem field_leadsTo {root : Xml} {loc : AhbLocation} {st : EdifactStack} (h : getEdifactStack root loc = .ok st) {d : PyStr}
    (hd : loc.dataElementId = some d) : ∃ path msg classes seg field, LeadsTo root st.toJsonPath path (msg :: (classes ++ seg) ++ [field]) ∧
      List.Forall₂ (fun (l : AhbLocationLayer) e => IsClass l.ref e) loc.layers classes ∧ IsField d field ∧
      (seg = [] ∨ ∃ s code, seg = [s] ∧ loc.segmentCode = some code ∧ code ≠ py!"UNH" ∧ IsClass code s) := by
  unfold getEdifactStack at h
  cases hn : getElement root loc with
  | error e => rw [hn] at h; cases h
  | ok n =>
    rw [hn] at h
    have h : elementToEdifactStack root n.path = .ok st := h
    obtain ⟨msg, classes, tail, h1, _, h3, h4, h5, h6⟩ := C48_lineage hn
    obtain ⟨seg, field, rfl, h8, h9⟩ := h6 d hd
    exact ⟨n.path, msg, classes, seg, field, by simpa using stack_leadsTo h1 h, h4, h8, h9⟩

/-- the segment of one location can not be the innermost group of the other one -/
theorem no_segment_group {ls : List AhbLocationLayer} (hk : KeysOk ls) {cs : List Xml} {s : Xml} {code : PyStr}
    (h : List.Forall₂ (fun (l : AhbLocationLayer) e => IsClass l.ref e) ls (cs ++ [s])) (hc : IsThreeLetterCode code) (hu : code ≠ py!"UNH")
    (hs : IsClass code s) : False := by
  obtain ⟨l, hl, hls⟩ := last_class h
  have he : l.ref = code := Option.some.inj (hls.2.symm.trans hs.2)
  rcases ref_cases (hk l hl) with h | h
  · exact hu (he.symm.trans h)
  · exact not_both hc (he ▸ h)

/-- the same path, hence the same field -/
theorem same_path {root : Xml} (hroot : DistinctNames root) {a b : AhbLocation} {sa sb : EdifactStack} (ha : getEdifactStack root a = .ok sa)
    (hb : getEdifactStack root b = .ok sb) (hab : sa.toJsonPath = sb.toJsonPath) {da db : PyStr} (hda : a.dataElementId = some da)
    (hdb : b.dataElementId = some db) (hca : CodesOk a) (hcb : CodesOk b) :
    da = db ∧ a.groups = b.groups ∧ (a.segmentCode = b.segmentCode ∨
      ∃ path msg classes field, LeadsTo root sa.toJsonPath path (msg :: classes ++ [field]) ∧ IsField da field ∧
        List.Forall₂ (fun (l : AhbLocationLayer) e => IsClass l.ref e) a.layers classes) := by
  obtain ⟨pa, ma, csa, sga, fa, la, ca, ia, ga⟩ := field_leadsTo ha hda
  obtain ⟨pb, mb, csb, sgb, fb, lb, cb, ib, gb⟩ := field_leadsTo hb hdb
  have he0 := (C101_unambiguous hroot la (hab ▸ lb)).2
  obtain ⟨he, hf⟩ : csa ++ sga = csb ++ sgb ∧ fa = fb := by
    obtain ⟨h1, h2⟩ := List.append_inj' he0 rfl
    exact ⟨(List.cons.inj h1).2, by simpa using h2⟩
  clear he0
  subst hf
  have hid : da = db := Option.some.inj (ia.2.symm.trans ib.2)
  refine ⟨hid, ?_⟩
  rcases ga with rfl | ⟨s, code, rfl, hcode, hu, hs⟩
  · rcases gb with rfl | ⟨s, code, rfl, hcode, hu, hs⟩
    · rw [List.append_nil, List.append_nil] at he
      subst he
      exact ⟨groups_of_classes ca cb, .inr ⟨pa, ma, csa, fa, by simpa using la, ia, ca⟩⟩
    · rw [List.append_nil] at he
      subst he
      exact (no_segment_group hca.2 ca (hcb.1 _ hcode) hu hs).elim
  · rcases gb with rfl | ⟨s', code', rfl, hcode', hu', hs'⟩
    · rw [List.append_nil] at he
      subst he
      exact (no_segment_group hcb.2 cb (hca.1 _ hcode) hu hs).elim
    · obtain ⟨hcs, hss⟩ := List.append_inj' he rfl
      clear he
      subst hcs
      have hss : s = s' := by simpa using hss
      subst hss
      refine ⟨groups_of_classes ca cb, .inl ?_⟩
      rw [hcode, hcode']
      exact congrArg some (Option.some.inj (hs.2.symm.trans hs'.2))

/-- a field directly in the class of a group -/
theorem not_in_segment {root : Xml} (hseg : FieldsInSegments root) {path : List Nat} {msg field : Xml} {classes : List Xml}
    {ls : List AhbLocationLayer} (hne : ls ≠ []) (hk : KeysOk ls) (hl : lineage root path = some (msg :: classes ++ [field])) {d : PyStr}
    (hf : IsField d field) (hc : List.Forall₂ (fun (l : AhbLocationLayer) e => IsClass l.ref e) ls classes) : False := by
  rcases List.eq_nil_or_concat classes with rfl | ⟨cs, c, rfl⟩
  · have := hc.length_eq
    simp at this
    exact hne this
  · rw [List.concat_eq_append] at hc hl
    obtain ⟨r, hr, hu, hs⟩ := hseg path (msg :: cs) c field (by simpa using hl) hf.1
    obtain ⟨l, hl, hls⟩ := last_class hc
    have he : l.ref = r := Option.some.inj (hls.2.symm.trans hr)
    rcases ref_cases (hk l hl) with h | h
    · exact hu (he.symm.trans h)
    · exact hs (he ▸ h)

/-! ## the classes -/

theorem layerWalk_length {parent e : Xml} {ls : List AhbLocationLayer} {p : List Nat} (h : LayerWalk parent ls p e) : p.length = ls.length := by
  induction h with
  | nil => rfl
  | cons _ _ _ ih => simp [ih]

theorem layerWalk_end {parent e e' : Xml} {ls ls' : List AhbLocationLayer} {p : List Nat} (h : LayerWalk parent ls p e)
    (h' : LayerWalk parent ls' p e') : e = e' := by
  induction h generalizing ls' with
  | nil => cases h'; rfl
  | cons hc _ _ ih =>
    cases h' with
    | cons hc' _ h2 =>
      rw [hc] at hc'
      cases hc'
      exact ih h2

/-- the same path, hence the same class -/
theorem same_class {root document : Xml} {m : Nat} (hm : OnlyChild (IsClass py!"/") root m) (hc : root.children[m]? = some document)
    (hroot : DistinctNames root) {a b : AhbLocation} {sa sb : EdifactStack} (ha : getEdifactStack root a = .ok sa)
    (hb : getEdifactStack root b = .ok sb) (hab : sa.toJsonPath = sb.toJsonPath) (hg : a.groups = b.groups) :
    ∃ p e, LayerWalk document a.layers p e ∧ LayerWalk document b.layers p e := by
  obtain ⟨pa, esa, ea, la, fa⟩ := location_found hm hc ha
  obtain ⟨pb, esb, eb, lb, fb⟩ := location_found hm hc hb
  have hp := (List.cons.inj (C101_unambiguous hroot la (hab ▸ lb)).1).2
  subst hp
  obtain ⟨_, pa1, ca, _, wa, ra⟩ := fa
  obtain ⟨_, pb1, cb, _, wb, rb⟩ := fb
  have hl : pa1.length = pb1.length := by
    rw [layerWalk_length wa, layerWalk_length wb]
    have := congrArg List.length hg
    simpa [AhbLocation.groups] using this
  obtain ⟨ta, hta⟩ : ∃ t, pa = pa1 ++ t := by
    rcases ra with ⟨_, h, _⟩ | ⟨d, p2, seg, i, _, _, _, _, h⟩
    · exact ⟨[], by simp [h]⟩
    · exact ⟨p2 ++ [i], by simp [h]⟩
  obtain ⟨tb, htb⟩ : ∃ t, pa = pb1 ++ t := by
    rcases rb with ⟨_, h, _⟩ | ⟨d, p2, seg, i, _, _, _, _, h⟩
    · exact ⟨[], by simp [h]⟩
    · exact ⟨p2 ++ [i], by simp [h]⟩
  have := (List.append_inj (hta.symm.trans htb) hl).1
  subst this
  have he := layerWalk_end wa wb
  subst he
  exact ⟨pa1, ca, wa, wb⟩

/-! ## the runs -/

/-- the segment codes of a run -/
theorem run_location_code {located : List (AhbLine × AhbLocation)} {r : Run} (hr : r ∈ runsOf located) {loc : AhbLocation}
    (h : loc = r.location ∨ ∃ x ∈ r.2, loc = x.2) : loc.segmentCode = r.1.segmentCode := by
  obtain ⟨_, hk⟩ := (C15_runs located).2.1 r hr
  rcases h with rfl | ⟨x, hm, rfl⟩
  · unfold Run.location
    split
    · rename_i l loc he
      exact (hk (l, loc) (by rw [he]; exact List.mem_singleton_self _)).2.1
    · rfl
  · exact (hk x hm).2.1

/-- a run describes a field with the given path -/
def FieldPath (root : Xml) (r : Run) (d : PyStr) : Prop :=
  r.hasDataElement = true ∧ ∃ st, r.stack (migLookup root) = some st ∧ st.toJsonPath = d

theorem created_field {root : Xml} {posStr : AhbLocation → PyStr} {r : Run} {used : List PyStr} {x : DocItem} {d : PyStr}
    (h : x ∈ r.created (migLookup root) posStr used) (hd : x.fieldDiscriminator = some d) : FieldPath root r d := by
  cases x with
  | group _ _ _ => cases hd
  | segment _ _ _ _ _ => cases hd
  | dataElement de =>
    obtain ⟨_, first, rest, id, hl, hid, _, hdisc, _⟩ := merge_ok (created_dataElement h)
    refine ⟨?_, ?_⟩
    · unfold Run.hasDataElement
      rw [hl, List.any_cons, hid]
      rfl
    · have hd : de.discriminator = some d := hd
      rw [hdisc] at hd
      exact Option.map_eq_some_iff.1 hd

theorem runs_same_path {root : Xml} (hroot : DistinctNames root) {sgh : Sgh} {lines : List AhbLine} {located : List (AhbLine × AhbLocation)}
    (hl : determineLocations sgh lines = .ok located) {r s : Run} (hr : r ∈ runsOf located) (hs : s ∈ runsOf located) {d : PyStr}
    (hrd : FieldPath root r d) (hsd : FieldPath root s d) {x y : AhbLine × AhbLocation} (hx : x ∈ r.2) (hy : y ∈ s.2) :
    x.2.dataElementId ≠ none ∧ x.2.dataElementId = y.2.dataElementId ∧ x.2.groups = y.2.groups ∧
      (x.2.segmentCode = y.2.segmentCode ∨ ∃ path msg classes field id, LeadsTo root d path (msg :: classes ++ [field]) ∧ IsField id field ∧
        List.Forall₂ (fun (l : AhbLocationLayer) e => IsClass l.ref e) x.2.layers classes) ∧
      ∀ m document, OnlyChild (IsClass py!"/") root m → root.children[m]? = some document →
        ∃ p e, LayerWalk document x.2.layers p e ∧ LayerWalk document y.2.layers p e := by
  obtain ⟨hflat, hkeys, _⟩ := C15_runs located
  have mem : ∀ {r : Run}, r ∈ runsOf located → ∀ x ∈ r.2, x ∈ located := by
    intro r hr x hx
    rw [← hflat, List.mem_flatMap]
    exact ⟨r, hr, hx⟩
  have facts : ∀ {r : Run}, r ∈ runsOf located → FieldPath root r d → ∀ x ∈ r.2, ∃ loc st id, getEdifactStack root loc = .ok st ∧
      st.toJsonPath = d ∧ loc.layers = x.2.layers ∧ loc.segmentCode = x.2.segmentCode ∧ loc.dataElementId = some id ∧
      x.2.dataElementId = some id ∧ CodesOk loc := by
    intro r hr hrd x hx
    obtain ⟨hde, st, hst, hp⟩ := hrd
    obtain ⟨loc, hloc, hwhere⟩ := run_stack_some hst
    obtain ⟨h1, h2⟩ := run_location_eq hr hwhere
    have h3 := run_location_code hr hwhere
    obtain ⟨g1, g2⟩ := run_location_eq hr (.inr ⟨x, hx, rfl⟩)
    have g3 := run_location_code hr (.inr ⟨x, hx, rfl⟩)
    unfold Run.hasDataElement at hde
    obtain ⟨l, hlm, hld⟩ := List.any_eq_true.1 hde
    obtain ⟨_, _, _, _, hsame, _⟩ := run_slice hl r hr
    obtain ⟨id, hid⟩ := Option.isSome_iff_exists.1 hld
    have hrid : r.1.dataElementId = some id := by rw [← hsame l hlm, hid]
    have hcx := located_codesOk hl x (mem hr x hx)
    refine ⟨loc, st, id, hloc, hp, h1.trans g1.symm, h3.trans g3.symm, h2.trans hrid, g2.trans hrid, ?_⟩
    unfold CodesOk
    rw [h1, h3, ← g1, ← g3]
    exact hcx
  obtain ⟨la, sa, ia, a1, a2, a3, a4, a5, a6, a7⟩ := facts hr hrd x hx
  obtain ⟨lb, sb, ib, b1, b2, b3, b4, b5, b6, b7⟩ := facts hs hsd y hy
  obtain ⟨h1, h2, h3⟩ := same_path hroot a1 b1 (a2.trans b2.symm) a5 b5 a7 b7
  refine ⟨by rw [a6]; simp, by rw [a6, b6, h1], ?_, ?_, ?_⟩
  · unfold AhbLocation.groups at h2 ⊢
    rw [← a3, ← b3, h2]
  · rcases h3 with h3 | ⟨p, m, cs, f, h4, h5, h6⟩
    · exact .inl (by rw [← a4, ← b4, h3])
    · exact .inr ⟨p, m, cs, f, ia, a2 ▸ h4, h5, a3 ▸ h6⟩
  · intro m document hm hc
    rw [← a3, ← b3]
    exact same_class hm hc hroot a1 b1 (a2.trans b2.symm) h2

theorem created_nodup {root : Xml} {posStr : AhbLocation → PyStr} (r : Run) (used : List PyStr) :
    ((r.created (migLookup root) posStr used).filterMap DocItem.fieldDiscriminator).Nodup := by
  unfold Run.created
  split
  · exact List.nodup_nil
  · split
    · cases r.createdDataElement (migLookup root) with
      | none => exact List.nodup_nil
      | some x =>
        rw [Option.toList_some, List.filterMap_cons]
        split <;> simp
    · have : ∀ x ∈ (r.openedGroup (migLookup root) used).toList ++ (r.createdSegment (migLookup root) posStr).toList, x.fieldDiscriminator = none := by
        intro x hx
        rcases List.mem_append.1 hx with hx | hx
        · rw [Option.mem_toList] at hx
          unfold Run.openedGroup at hx
          split at hx
          · cases hx; rfl
          · cases hx
        · rw [Option.mem_toList] at hx
          unfold Run.createdSegment at hx
          split at hx
          · cases hx; rfl
          · cases hx
      rw [List.filterMap_eq_nil_iff.2 this]
      exact List.nodup_nil

theorem createdItems_nodup {root : Xml} {posStr : AhbLocation → PyStr} (runs : List Run) (used : List PyStr)
    (h : runs.Pairwise fun r s => ∀ d, FieldPath root r d → ¬ FieldPath root s d) :
    ((createdItems (migLookup root) posStr used runs).filterMap DocItem.fieldDiscriminator).Nodup := by
  induction runs generalizing used with
  | nil => exact List.nodup_nil
  | cons r runs ih =>
    rw [List.pairwise_cons] at h
    rw [createdItems, List.filterMap_append, List.nodup_append]
    refine ⟨created_nodup r used, ih _ h.2, ?_⟩
    intro d hd d' hd' he
    subst he
    obtain ⟨x, hx, hxd⟩ := List.mem_filterMap.1 hd
    obtain ⟨y, hy, hyd⟩ := List.mem_filterMap.1 hd'
    obtain ⟨s, hs, used', hy⟩ := createdItems_run _ _ hy
    exact h.1 s hs d (created_field hx hxd) (created_field hy hyd)

/-- the discriminators are distinct if no two parts with a data element are the same -/
theorem fields_nodup {root : Xml} (hroot : DistinctNames root) {posStr : AhbLocation → PyStr} {flat flat' : FlatAhb} {sgh : Sgh} {deep : DeepAhb}
    (h : toDeepAhb (migLookup root) posStr flat sgh = .ok (flat', deep)) {same : AhbLocation → AhbLocation → Prop}
    (hsame : ∀ located, determineLocations sgh flat.lines = .ok located → ∀ r ∈ runsOf located, ∀ s ∈ runsOf located, ∀ d, FieldPath root r d →
      FieldPath root s d → ∀ x ∈ r.2, ∀ y ∈ s.2, same x.2 y.2)
    (hone : EachFieldOnce same sgh flat.lines) : ((documentOrder deep.lines).filterMap DocItem.fieldDiscriminator).Nodup := by
  obtain ⟨located, hl, hdoc, _⟩ := toDeepAhb_facts h
  rw [hdoc]
  apply createdItems_nodup
  have hp := hone located _ hl (runs_placeParts located)
  rw [List.pairwise_map] at hp
  refine hp.imp_of_mem ?_
  intro r s hr hs hrs d hrd hsd
  obtain ⟨x, hx⟩ := List.exists_mem_of_ne_nil _ ((C15_runs located).2.1 r hr).1
  obtain ⟨y, hy⟩ := List.exists_mem_of_ne_nil _ ((C15_runs located).2.1 s hs).1
  exact hrs x hx y hy (runs_same_path hroot hl hr hs hrd hsd hx hy).1 (hsame located hl r hr s hs d hrd hsd x hx y hy)

theorem filterMap_nodup_inj {α β : Type} {f : α → Option β} : ∀ {l : List α}, (l.filterMap f).Nodup → ∀ {a b : α}, a ∈ l → b ∈ l → ∀ {d : β},
    f a = some d → f b = some d → a = b := by
  intro l
  induction l with
  | nil => intro _ a b ha; cases ha
  | cons x l ih =>
    intro h a b ha hb d had hbd
    cases hx : f x with
    | none =>
      rw [List.filterMap_cons_none hx] at h
      rcases List.mem_cons.1 ha with rfl | ha
      · rw [hx] at had; cases had
      rcases List.mem_cons.1 hb with rfl | hb
      · rw [hx] at hbd; cases hbd
      exact ih h ha hb had hbd
    | some e =>
      rw [List.filterMap_cons_some hx, List.nodup_cons] at h
      rcases List.mem_cons.1 ha with rfl | ha'
      · rcases List.mem_cons.1 hb with rfl | hb
        · rfl
        · rw [hx] at had
          cases had
          exact absurd (List.mem_filterMap.2 ⟨b, hb, hbd⟩) h.1
      · rcases List.mem_cons.1 hb with hb | hb
        · subst hb
          rw [hx] at hbd
          cases hbd
          exact (h.1 (List.mem_filterMap.2 ⟨a, ha', had⟩)).elim
        · exact ih h.2 ha' hb had hbd

end Verif
