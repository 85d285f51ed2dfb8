import Verif.Spec.Session
/-!
# Proofs: what is shared by the objects that are made from one CSV reader
-/

namespace Verif

/-- every flat AHB has its own meta information, and every deep AHB has that of a flat AHB -/
structure SessionInv (s : Session) : Prop where
  bound : ∀ m ∈ s.flats.map Prod.fst, m < s.metaCount
  nodup : (s.flats.map Prod.fst).Nodup
  deep : ∀ d ∈ s.deeps, d.1 ∈ s.flats.map Prod.fst

theorem map_fst_set {α β : Type} (l : List (α × β)) (i : Nat) (a : α) (b b' : β) (h : l[i]? = some (a, b)) :
    (l.set i (a, b')).map Prod.fst = l.map Prod.fst := by
  rw [List.map_set]
  apply List.ext_getElem?
  intro k
  rw [List.getElem?_set]
  split
  · rename_i hik
    subst hik
    have : i < (l.map Prod.fst).length := by
      rw [List.length_map]
      exact (List.getElem?_eq_some_iff.1 h).1
    rw [if_pos this, List.getElem?_map, h]
    rfl
  · rfl

theorem session_assignMeta (s : Session) (m : Nat) (a : MetaAttr) :
    (∃ v, (s.metas m).assign a = .ok v ∧ s.assignMeta m a = ({ s with metas := fun k => if k = m then v else s.metas k }, none)) ∨
    (∃ e, (s.metas m).assign a = .error e ∧ s.assignMeta m a = (s, some e)) := by
  unfold Session.assignMeta
  cases (s.metas m).assign a with
  | ok v => exact .inl ⟨v, rfl, rfl⟩
  | error e => exact .inr ⟨e, rfl, rfl⟩

theorem sessionInv_start (r : CsvReader) : SessionInv (Session.ofReader r) :=
  ⟨fun _ h => (by cases h), List.nodup_nil, fun _ h => (by cases h)⟩

theorem sessionInv_assignMeta {s : Session} (h : SessionInv s) (m : Nat) (a : MetaAttr) : SessionInv (s.assignMeta m a).1 := by
  rcases session_assignMeta s m a with ⟨v, _, e⟩ | ⟨x, _, e⟩ <;> rw [e]
  · exact ⟨h.bound, h.nodup, h.deep⟩
  · exact h

theorem sessionInv_apply {s : Session} (h : SessionInv s) (op : SessionOp) : SessionInv (s.apply op).1 := by
  cases op with
  | toFlat =>
    simp only [Session.apply]
    cases AhbMetaInformation.new { pruefidentifikator := s.pruefidentifikator } with
    | error e => exact h
    | ok m =>
      simp only
      cases FlatAhb.checkLines ((s.rows.filter fun r => (s.lines r).holdsAnyInformation).map s.lines) with
      | error e => exact h
      | ok _ =>
        refine ⟨fun k hk => ?_, ?_, fun d hd => ?_⟩
        · simp only [List.map_append, List.map_cons, List.map_nil, List.mem_append, List.mem_singleton] at hk
          rcases hk with hk | rfl
          · exact Nat.lt_succ_of_lt (h.bound k hk)
          · exact Nat.lt_succ_self _
        · simp only [List.map_append, List.map_cons, List.map_nil]
          rw [List.nodup_append]
          refine ⟨h.nodup, by simp, fun a ha b hb => ?_⟩
          simp only [List.mem_singleton] at hb
          subst hb
          exact Nat.ne_of_lt (h.bound a ha)
        · simp only [List.map_append, List.mem_append]
          exact .inl (h.deep d hd)
  | toDeep i mig posStr sgh =>
    simp only [Session.apply]
    cases hf : s.flats[i]? with
    | none => exact h
    | some f =>
      simp only
      split
      · exact ⟨h.bound, h.nodup, h.deep⟩
      · refine ⟨h.bound, h.nodup, fun d hd => ?_⟩
        simp only [List.mem_append, List.mem_singleton] at hd
        rcases hd with hd | rfl
        · exact h.deep d hd
        · exact List.mem_map.2 ⟨f, List.mem_of_getElem? hf, rfl⟩
  | editFlat i e =>
    simp only [Session.apply]
    cases hf : s.flats[i]? with
    | none => exact h
    | some f =>
      have := map_fst_set s.flats i f.1 f.2 (FlatObj.apply { ahbMeta := s.metas f.1, heap := s.lines, refs := f.2 } e).1.refs hf
      exact ⟨by simp only [this]; exact h.bound, by simp only [this]; exact h.nodup, by simp only [this]; exact h.deep⟩
  | assignFlatMeta i a =>
    simp only [Session.apply]
    cases s.flats[i]? with
    | none => exact h
    | some f => exact sessionInv_assignMeta h _ _
  | assignDeepMeta i a =>
    simp only [Session.apply]
    cases s.deeps[i]? with
    | none => exact h
    | some f => exact sessionInv_assignMeta h _ _
  | editDeep i lines =>
    simp only [Session.apply]
    cases hd : s.deeps[i]? with
    | none => exact h
    | some d =>
      refine ⟨h.bound, h.nodup, fun x hx => ?_⟩
      rcases List.mem_or_eq_of_mem_set hx with hx | rfl
      · exact h.deep x hx
      · exact h.deep d (List.mem_of_getElem? hd)
  | setCondition key text => exact ⟨h.bound, h.nodup, h.deep⟩

theorem sessionInv_run (ops : List SessionOp) : ∀ {s : Session}, SessionInv s → SessionInv (s.run ops) := by
  induction ops with
  | nil => exact fun h => h
  | cons op ops ih => exact fun h => ih (sessionInv_apply h op)

theorem sessionInv_reachable {s : Session} (h : s.Reachable) : SessionInv s := by
  obtain ⟨r, ops, rfl⟩ := h
  exact sessionInv_run ops (sessionInv_start r)

/-- different flat AHBs have different meta information -/
theorem SessionInv.metas_ne {s : Session} (h : SessionInv s) {i j : Nat} {f g : Nat × List Nat} (hi : s.flats[i]? = some f)
    (hj : s.flats[j]? = some g) (hij : i ≠ j) : f.1 ≠ g.1 := by
  intro he
  have h1 : (s.flats.map Prod.fst)[i]? = some f.1 := by rw [List.getElem?_map, hi]; rfl
  have h2 : (s.flats.map Prod.fst)[j]? = some f.1 := by rw [List.getElem?_map, hj, he]; rfl
  obtain ⟨l1, e1⟩ := List.getElem?_eq_some_iff.1 h1
  obtain ⟨l2, e2⟩ := List.getElem?_eq_some_iff.1 h2
  have hp := List.pairwise_iff_getElem.1 h.nodup
  rcases Nat.lt_or_gt_of_ne hij with hlt | hlt
  · exact hp i j l1 l2 hlt (e1.trans e2.symm)
  · exact hp j i l2 l1 hlt (e2.trans e1.symm)

theorem session_assignMeta_other (s : Session) (m : Nat) (a : MetaAttr) :
    (s.assignMeta m a).1.lines = s.lines ∧ (s.assignMeta m a).1.rows = s.rows ∧ (s.assignMeta m a).1.flats = s.flats ∧
    (s.assignMeta m a).1.deeps = s.deeps ∧ (s.assignMeta m a).1.pruefidentifikator = s.pruefidentifikator ∧
    ∀ k, k ≠ m → (s.assignMeta m a).1.metas k = s.metas k := by
  rcases session_assignMeta s m a with ⟨v, _, e⟩ | ⟨x, _, e⟩ <;> rw [e]
  · exact ⟨rfl, rfl, rfl, rfl, rfl, fun k hk => by simp [hk]⟩
  · exact ⟨rfl, rfl, rfl, rfl, rfl, fun _ _ => rfl⟩

theorem session_conditions (s : Session) (op : SessionOp) (h : ∀ key text, op ≠ .setCondition key text) :
    (s.apply op).1.conditions = s.conditions := by
  cases op with
  | toFlat =>
    simp only [Session.apply]
    split
    · rfl
    · split <;> rfl
  | toDeep i mig posStr sgh =>
    simp only [Session.apply]
    split
    · rfl
    · split <;> rfl
  | editFlat i e =>
    simp only [Session.apply]
    split <;> rfl
  | assignFlatMeta i a =>
    simp only [Session.apply, Session.assignMeta]
    split
    · rfl
    · split <;> rfl
  | assignDeepMeta i a =>
    simp only [Session.apply, Session.assignMeta]
    split
    · rfl
    · split <;> rfl
  | editDeep i lines =>
    simp only [Session.apply]
    split <;> rfl
  | setCondition key text => exact absurd rfl (h key text)

theorem session_rows (s : Session) (op : SessionOp) :
    (s.apply op).1.rows = s.rows ∧ (s.apply op).1.pruefidentifikator = s.pruefidentifikator := by
  cases op with
  | toFlat =>
    simp only [Session.apply]
    split
    · exact ⟨rfl, rfl⟩
    · split <;> exact ⟨rfl, rfl⟩
  | toDeep i mig posStr sgh =>
    simp only [Session.apply]
    split
    · exact ⟨rfl, rfl⟩
    · split <;> exact ⟨rfl, rfl⟩
  | editFlat i e =>
    simp only [Session.apply]
    split <;> exact ⟨rfl, rfl⟩
  | assignFlatMeta i a =>
    simp only [Session.apply]
    split
    · exact ⟨rfl, rfl⟩
    · exact ⟨(session_assignMeta_other s _ a).2.1, (session_assignMeta_other s _ a).2.2.2.2.1⟩
  | assignDeepMeta i a =>
    simp only [Session.apply]
    split
    · exact ⟨rfl, rfl⟩
    · exact ⟨(session_assignMeta_other s _ a).2.1, (session_assignMeta_other s _ a).2.2.2.2.1⟩
  | editDeep i lines =>
    simp only [Session.apply]
    split <;> exact ⟨rfl, rfl⟩
  | setCondition key text => exact ⟨rfl, rfl⟩

theorem flatObj_apply_heap (f : FlatObj) (e : FlatEdit) (h : ∀ r a, e ≠ .assign r a) : (f.apply e).1.heap = f.heap := by
  cases e with
  | assign r a => exact absurd rfl (h r a)
  | setLines refs => simp only [FlatObj.apply]; split <;> rfl
  | mutate refs => rfl
  | sort =>
    simp only [FlatObj.apply]
    split
    · rfl
    · split <;> rfl

theorem flatObj_assign_refs (f : FlatObj) (r : Nat) (a : LineAttr) : (f.apply (.assign r a)).1.refs = f.refs := by
  simp only [FlatObj.apply]
  split <;> rfl

theorem session_lines (s : Session) (op : SessionOp) (h : ¬ op.AssignsLine) : (s.apply op).1.lines = s.lines := by
  cases op with
  | toFlat =>
    simp only [Session.apply]
    split
    · rfl
    · split <;> rfl
  | toDeep i mig posStr sgh =>
    simp only [Session.apply]
    split
    · rfl
    · split <;> rfl
  | editFlat i e =>
    simp only [Session.apply]
    split
    · rfl
    · exact flatObj_apply_heap _ e fun r a he => h (by rw [he]; trivial)
  | assignFlatMeta i a =>
    simp only [Session.apply]
    split
    · rfl
    · exact (session_assignMeta_other s _ a).1
  | assignDeepMeta i a =>
    simp only [Session.apply]
    split
    · rfl
    · exact (session_assignMeta_other s _ a).1
  | editDeep i lines =>
    simp only [Session.apply]
    split <;> rfl
  | setCondition key text => rfl

theorem session_flats (s : Session) (op : SessionOp) {i : Nat} (hi : i < s.flats.length) (h : ¬ op.ChangesList i) :
    (s.apply op).1.flats[i]? = s.flats[i]? := by
  cases op with
  | toFlat =>
    simp only [Session.apply]
    split
    · rfl
    · split
      · rfl
      · exact List.getElem?_append_left hi
  | toDeep k mig posStr sgh =>
    simp only [Session.apply]
    split
    · rfl
    · split <;> rfl
  | editFlat k e =>
    simp only [Session.apply]
    split
    · rfl
    · rename_i f hf
      simp only
      rw [List.getElem?_set]
      split
      · rename_i hk
        subst hk
        rw [if_pos hi, hf]
        cases e with
        | assign r a => rw [flatObj_assign_refs]
        | setLines refs => exact absurd rfl h
        | mutate refs => exact absurd rfl h
        | sort => exact absurd rfl h
      · rfl
  | assignFlatMeta k a =>
    simp only [Session.apply]
    split
    · rfl
    · rw [(session_assignMeta_other s _ a).2.2.1]
  | assignDeepMeta k a =>
    simp only [Session.apply]
    split
    · rfl
    · rw [(session_assignMeta_other s _ a).2.2.1]
  | editDeep k lines =>
    simp only [Session.apply]
    split <;> rfl
  | setCondition key text => rfl

theorem session_flats_meta (s : Session) (op : SessionOp) {i m : Nat} {refs : List Nat} (h : s.flats[i]? = some (m, refs)) :
    ∃ refs', (s.apply op).1.flats[i]? = some (m, refs') := by
  have hi : i < s.flats.length := (List.getElem?_eq_some_iff.1 h).1
  by_cases hc : op.ChangesList i
  · cases op with
    | editFlat k e =>
      have hk : k = i := by cases e <;> first | exact hc | cases hc
      subst hk
      simp only [Session.apply, h]
      exact ⟨_, by rw [List.getElem?_set, if_pos rfl, if_pos hi]⟩
    | _ => cases hc
  · exact ⟨refs, by rw [session_flats s op hi hc, h]⟩

theorem session_deeps (s : Session) (op : SessionOp) {d : Nat} (hd : d < s.deeps.length) (h : ¬ op.ChangesDeep d) :
    (s.apply op).1.deeps[d]? = s.deeps[d]? := by
  cases op with
  | toFlat =>
    simp only [Session.apply]
    split
    · rfl
    · split <;> rfl
  | toDeep k mig posStr sgh =>
    simp only [Session.apply]
    split
    · rfl
    · split
      · rfl
      · exact List.getElem?_append_left hd
  | editFlat k e =>
    simp only [Session.apply]
    split <;> rfl
  | assignFlatMeta k a =>
    simp only [Session.apply]
    split
    · rfl
    · rw [(session_assignMeta_other s _ a).2.2.2.1]
  | assignDeepMeta k a =>
    simp only [Session.apply]
    split
    · rfl
    · rw [(session_assignMeta_other s _ a).2.2.2.1]
  | editDeep k lines =>
    simp only [Session.apply]
    split
    · rfl
    · simp only
      rw [List.getElem?_set, if_neg]
      exact h
  | setCondition key text => rfl

theorem session_deeps_meta (s : Session) (op : SessionOp) {d m : Nat} {groups : List SegmentGroup} (h : s.deeps[d]? = some (m, groups)) :
    ∃ groups', (s.apply op).1.deeps[d]? = some (m, groups') := by
  have hd : d < s.deeps.length := (List.getElem?_eq_some_iff.1 h).1
  by_cases hc : op.ChangesDeep d
  · cases op with
    | editDeep k lines =>
      have hk : k = d := hc
      subst hk
      simp only [Session.apply, h]
      exact ⟨_, by rw [List.getElem?_set, if_pos rfl, if_pos hd]⟩
    | _ => cases hc
  · exact ⟨groups, by rw [session_deeps s op hd hc, h]⟩

theorem session_metas {s : Session} (inv : SessionInv s) (op : SessionOp) {i : Nat} {f : Nat × List Nat} (hf : s.flats[i]? = some f)
    (h : ¬ op.WritesMeta s i) : (s.apply op).1.metas f.1 = s.metas f.1 := by
  cases op with
  | toFlat =>
    simp only [Session.apply]
    split
    · rfl
    · split
      · rfl
      · have : f.1 ≠ s.metaCount := Nat.ne_of_lt (inv.bound _ (List.mem_map.2 ⟨f, List.mem_of_getElem? hf, rfl⟩))
        simp [this]
  | toDeep k mig posStr sgh =>
    simp only [Session.apply]
    split
    · rfl
    · rename_i g hg
      have hne : f.1 ≠ g.1 := inv.metas_ne hf hg fun e => h e.symm
      split <;> simp [hne]
  | editFlat k e =>
    simp only [Session.apply]
    split <;> rfl
  | assignFlatMeta k a =>
    simp only [Session.apply]
    split
    · rfl
    · rename_i g hg
      exact (session_assignMeta_other s _ a).2.2.2.2.2 _ (inv.metas_ne hf hg fun e => h e.symm)
  | assignDeepMeta k a =>
    simp only [Session.apply]
    split
    · rfl
    · rename_i g hg
      refine (session_assignMeta_other s _ a).2.2.2.2.2 _ fun e => h ?_
      exact ⟨f.1, f.2, g.2, hf, by rw [hg, e]⟩
  | editDeep k lines =>
    simp only [Session.apply]
    split <;> rfl
  | setCondition key text => rfl

end Verif
