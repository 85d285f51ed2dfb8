import Verif.Spec.DeepTree
import Verif.Proofs.DeepSuccess
import Verif.Props.DeepSuccess
/-! a tree is determined by its document order and the depths of its groups -/

namespace Verif
open SegmentGroup

/-! ## depths -/

/-- depths in a list of groups below `d` levels -/
def depthsBelow (d : Nat) (l : List SegmentGroup) : List Nat := (groupAddresses l).map fun a => a.length + d

theorem addressesList_shift (f : Nat → Nat) (l : List SegmentGroup) (n m : Nat) :
    (addressesList n l).map (fun a => f a.length) = (addressesList m l).map (fun a => f a.length) := by
  induction l generalizing n m with
  | nil => rfl
  | cons g l ih =>
    simp only [addressesList, List.map_append, List.map_map]
    rw [ih (n + 1) (m + 1)]
    congr 1

theorem depthsBelow_nil (d : Nat) : depthsBelow d [] = [] := rfl

theorem depthsBelow_cons (d : Nat) (g : SegmentGroup) (l : List SegmentGroup) :
    depthsBelow d (g :: l) = (d + 1) :: (depthsBelow (d + 1) g.children ++ depthsBelow d l) := by
  obtain ⟨dd, e, i, s, gs⟩ := g
  unfold depthsBelow groupAddresses
  simp only [addressesList, addresses, List.map_append, List.map_cons, List.map_map, children, SegmentGroup.segmentGroups]
  rw [addressesList_shift (fun n => n + d) l (0 + 1) 0]
  simp only [List.length_singleton, List.cons_append, List.cons.injEq]
  refine ⟨by omega, ?_⟩
  congr 1
  cases gs with
  | none => rfl
  | some gs =>
    simp only [addressesOpt, Option.getD_some]
    apply List.map_congr_left
    intro a _
    simp only [Function.comp, List.length_cons]
    omega

theorem groupDepths_eq (l : List SegmentGroup) : groupDepths l = depthsBelow 0 l := by
  simp [groupDepths, depthsBelow]

/-! ## complete lists -/

theorem hasLists_iff (l : List SegmentGroup) :
    HasLists l ↔ ∀ g ∈ l, ∃ ss gs, g.segments = some ss ∧ g.segmentGroups = some gs ∧ HasLists gs := by
  constructor
  · intro h g hg
    obtain ⟨i, hi⟩ := List.mem_iff_getElem?.1 hg
    obtain ⟨h1, h2⟩ := h [i] g (by simp [groupAt?, hi, at?])
    obtain ⟨ss, hs⟩ := Option.ne_none_iff_exists'.1 h1
    obtain ⟨gs, hgs⟩ := Option.ne_none_iff_exists'.1 h2
    refine ⟨ss, gs, hs, hgs, fun a c hc => ?_⟩
    refine h (i :: a) c ?_
    simp only [groupAt?, hi, Option.bind_some]
    cases a with
    | nil => simp [groupAt?] at hc
    | cons j a =>
      simp only [groupAt?] at hc
      simp only [at?, children, hgs, Option.getD_some]
      exact hc
  · intro h a g hg
    cases a with
    | nil => simp [groupAt?] at hg
    | cons i a =>
      simp only [groupAt?] at hg
      cases hi : l[i]? with
      | none => rw [hi] at hg; simp at hg
      | some c =>
        rw [hi, Option.bind_some] at hg
        obtain ⟨ss, gs, hs, hgs, hrec⟩ := h c (List.mem_of_getElem? hi)
        cases a with
        | nil =>
          simp only [at?, Option.some.injEq] at hg
          subst hg
          simp [hs, hgs]
        | cons j a =>
          simp only [at?, children, hgs, Option.getD_some] at hg
          exact hrec (j :: a) g hg

theorem hasLists_nil : HasLists [] := (hasLists_iff []).2 (by simp)

theorem hasLists_append {a b : List SegmentGroup} : HasLists (a ++ b) ↔ HasLists a ∧ HasLists b := by
  rw [hasLists_iff, hasLists_iff, hasLists_iff]
  simp only [List.mem_append, or_imp, forall_and]

theorem mem_modify {α : Type} {l : List α} {i : Nat} {f : α → α} {x : α} (h : x ∈ l.modify i f) : x ∈ l ∨ ∃ y ∈ l, x = f y := by
  induction l generalizing i with
  | nil => simp at h
  | cons a l ih =>
    cases i with
    | zero =>
      simp only [List.modify_zero_cons, List.mem_cons] at h
      rcases h with rfl | h
      · exact .inr ⟨a, by simp, rfl⟩
      · exact .inl (by simp [h])
    | succ i =>
      simp only [List.modify_succ_cons, List.mem_cons] at h
      rcases h with rfl | h
      · exact .inl (by simp)
      · rcases ih h with h | ⟨y, hy, rfl⟩
        · exact .inl (by simp [h])
        · exact .inr ⟨y, by simp [hy], rfl⟩

theorem hasLists_modifyGroups {f : List SegmentGroup → List SegmentGroup} (hf : ∀ l, HasLists l → HasLists (f l)) :
    ∀ (p : GroupPath) (l : List SegmentGroup), HasLists l → HasLists (modifyGroups f p l)
  | [], l, h => hf l h
  | i :: p, l, h => by
    rw [modifyGroups, hasLists_iff]
    intro g hg
    rcases mem_modify hg with hg | ⟨c, hc, rfl⟩
    · exact (hasLists_iff l).1 h g hg
    · obtain ⟨ss, gs, hs, hgs, hrec⟩ := (hasLists_iff l).1 h c hc
      exact ⟨ss, modifyGroups f p gs, by simpa using hs, by simp [hgs], hasLists_modifyGroups hf p gs hrec⟩

theorem hasLists_modifySegments (f : List Segment → List Segment) (p : GroupPath) (l : List SegmentGroup) (h : HasLists l) :
    HasLists (modifySegments f p l) := by
  unfold modifySegments
  split
  · exact h
  · refine hasLists_modifyGroups (fun l hl => ?_) _ _ h
    rw [hasLists_iff]
    intro g hg
    rcases mem_modify hg with hg | ⟨c, hc, rfl⟩
    · exact (hasLists_iff l).1 hl g hg
    · obtain ⟨ss, gs, hs, hgs, hrec⟩ := (hasLists_iff l).1 hl c hc
      exact ⟨f ss, gs, by simp [hs], by simpa using hgs, hrec⟩

theorem popGroupLists_lines {n st st'} (h : popGroupLists n st = .ok st') : st'.lines = st.lines := by
  induction n generalizing st with
  | zero => cases h; rfl
  | succ n ih =>
    rw [popGroupLists] at h
    split at h
    · cases h
    · have := ih h; exact this

theorem pushGroupLists_lines {n st st'} (h : pushGroupLists n st = .ok st') : st'.lines = st.lines := by
  induction n generalizing st with
  | zero => cases h; rfl
  | succ n ih =>
    rw [pushGroupLists] at h
    split at h
    · cases h
    · split at h
      · cases h
      · split at h
        · cases h
        · have := ih h; exact this

theorem appendGroup_lists {g st st'} (hg : HasLists [g]) (hst : HasLists st.lines) (h : appendGroup g st = .ok st') :
    HasLists st'.lines := by
  unfold appendGroup at h
  split at h
  · cases h
  · cases h
    exact hasLists_modifyGroups (fun l hl => hasLists_append.2 ⟨hl, hg⟩) _ _ hst

theorem insertGroup_lists {g pos st st'} (hg : HasLists [g]) (hst : HasLists st.lines) (h : insertGroup g pos st = .ok st') :
    HasLists st'.lines := by
  unfold insertGroup at h
  split at h
  · cases h
    exact hasLists_append.2 ⟨hst, hg⟩
  · split at h
    · cases h
    · split at h
      · exact appendGroup_lists hg hst h
      · simp only [bind, Except.bind] at h
        split at h
        · cases h
        · split at h
          · cases h
          · rename_i st1 h1
            split at h
            · cases h
            · rename_i st2 h2
              exact appendGroup_lists hg (by rw [pushGroupLists_lines h2, popGroupLists_lines h1]; exact hst) h

theorem deepStep_lists {reader : MigLookup} {posStr} {r : Run} {st st' : DeepState} (hst : HasLists st.lines)
    (h : deepStep reader posStr st r = .ok st') : HasLists st'.lines := by
  unfold deepStep at h
  dsimp only at h
  split at h
  · cases h; exact hst
  · simp only [bind, Except.bind] at h
    split at h
    · cases h
    · split at h
      · unfold dataElementStep at h
        split at h
        · cases h; exact hst
        · simp only [bind, Except.bind] at h
          split at h
          · cases h
          · split at h
            · cases h
            · cases h
              exact hasLists_modifySegments _ _ _ hst
      · unfold segmentStep at h
        cases hf : (List.map Prod.fst r.2).head? with
        | none => rw [hf] at h; cases h
        | some first =>
          rw [hf] at h
          simp only [bind, Except.bind] at h
          split at h
          · cases h
          · split at h
            · cases h
            · rename_i st1 h1
              have hst1 : HasLists st1.lines := by
                simp only [maybeOpenGroup, bind, Except.bind] at h1
                split at h1
                · cases h1
                · split at h1
                  · split at h1
                    · cases h1
                    · rename_i g hg
                      obtain ⟨x, _, _, rfl⟩ := segmentGroupNew_ok hg
                      refine insertGroup_lists ?_ ?_ h1
                      · rw [hasLists_iff]
                        intro c hc
                        rw [List.mem_singleton.1 hc]
                        exact ⟨[], [], rfl, rfl, hasLists_nil⟩
                      · exact hst
                  · cases h1; exact hst
              split at h
              · cases h
              · split at h
                · cases h
                · unfold createSegment at h
                  split at h
                  · cases h; exact hst1
                  · simp only [bind, Except.bind] at h
                    split at h
                    · cases h
                    · split at h
                      · cases h
                      · cases h
                        exact hasLists_modifySegments _ _ _ hst1

theorem deepFold_lists {reader : MigLookup} {posStr} (runs : List Run) {st st' : DeepState} (hst : HasLists st.lines)
    (h : runs.foldlM (deepStep reader posStr) st = .ok st') : HasLists st'.lines := by
  induction runs generalizing st with
  | nil => cases h; exact hst
  | cons r runs ih =>
    rw [List.foldlM_cons] at h
    simp only [bind, Except.bind] at h
    split at h
    · cases h
    · rename_i st1 h1
      exact ih (deepStep_lists hst h1) h

/-! ## the depths of the openings -/

theorem Walk.depths {cur : GroupPath} {os : List Opening} {as : List GroupPath} (hw : Walk (some cur) os as)
    (hfit : OpeningsFit cur.length os) : as.map List.length = depthsAfter cur.length os := by
  induction os generalizing cur as with
  | nil =>
    cases as with
    | nil => rfl
    | cons a as => exact hw.elim
  | cons o os ih =>
    cases as with
    | nil => exact hw.elim
    | cons a as =>
      obtain ⟨⟨q, n, rfl, hnav⟩, hw'⟩ := hw
      obtain ⟨p, k, hp, hk, hfit'⟩ := hfit
      have hlen : k = (q ++ [n]).length := by
        rcases hnav with ⟨hcn, _⟩ | ⟨c, p', m, hcn, hpm, hq, hm⟩
        · cases hcn
        · cases hcn
          rw [hp] at hpm
          cases hpm
          simp only [depthAfter?, sharedLayers_eq] at hk
          have hpre := (lcp_prefix_left p o.layers).length_le
          rcases hm with ⟨hsub, rfl⟩ | ⟨hns, hup, rfl⟩
          · rw [if_pos (by rw [(lcp_eq_left_iff).2 hsub]; omega)] at hk
            cases hk
            rw [hq]
            simp
          · have hne : p.length - (lcp p o.layers).length ≠ 0 := by
              intro h0
              exact hns (lcp_eq_left_iff.1 (by omega))
            rw [if_neg hne] at hk
            split at hk
            · rename_i hcond
              cases hk
              rw [hq, List.length_append, List.length_take, List.length_singleton]
              omega
            · cases hk
      subst hlen
      simp only [List.map_cons, depthsAfter, hp, Option.bind_some, hk, List.cons.injEq, true_and]
      exact ih hw' hfit'

/-! ## uniqueness -/

/-- a document goes on with a group, or ends -/
def GroupNext (doc : List DocItem) : Prop := ∀ x, doc.head? = some x → ∃ d e i, x = .group d e i

theorem dataElements_unique {a b : List DataElement} {x y : List DocItem} (hx : ∀ de, x.head? ≠ some (.dataElement de))
    (hy : ∀ de, y.head? ≠ some (.dataElement de)) (h : a.map DocItem.dataElement ++ x = b.map DocItem.dataElement ++ y) :
    a = b ∧ x = y := by
  induction a generalizing b with
  | nil =>
    cases b with
    | nil => exact ⟨rfl, h⟩
    | cons c b => simp only [List.map_nil, List.nil_append] at h; rw [h] at hx; exact absurd rfl (hx c)
  | cons d a ih =>
    cases b with
    | nil => simp only [List.map_nil, List.nil_append] at h; rw [← h] at hy; exact absurd rfl (hy d)
    | cons c b =>
      simp only [List.map_cons, List.cons_append, List.cons.injEq, DocItem.dataElement.injEq] at h
      obtain ⟨rfl, h⟩ := h
      obtain ⟨rfl, rfl⟩ := ih h
      exact ⟨rfl, rfl⟩

theorem GroupNext.not_dataElement {doc : List DocItem} (h : GroupNext doc) (ss : List Segment) (de : DataElement) :
    (ss.flatMap Segment.docItems ++ doc).head? ≠ some (.dataElement de) := by
  cases ss with
  | nil =>
    intro hd
    obtain ⟨_, _, _, hx⟩ := h _ hd
    cases hx
  | cons s ss => simp [Segment.docItems, Segment.header]

theorem segments_unique {a b : List Segment} {x y : List DocItem} (hx : GroupNext x) (hy : GroupNext y)
    (h : a.flatMap Segment.docItems ++ x = b.flatMap Segment.docItems ++ y) : a = b ∧ x = y := by
  induction a generalizing b with
  | nil =>
    cases b with
    | nil => exact ⟨rfl, h⟩
    | cons c b =>
      simp only [List.flatMap_nil, List.nil_append] at h
      obtain ⟨_, _, _, hh⟩ := hx c.header (by rw [h]; rfl)
      cases hh
  | cons d a ih =>
    cases b with
    | nil =>
      simp only [List.flatMap_nil, List.nil_append] at h
      obtain ⟨_, _, _, hh⟩ := hy d.header (by rw [← h]; rfl)
      cases hh
    | cons c b =>
      simp only [List.flatMap_cons, Segment.docItems, List.cons_append, List.append_assoc, List.cons.injEq] at h
      obtain ⟨hhead, h⟩ := h
      obtain ⟨h1, h2⟩ := dataElements_unique (hx.not_dataElement a) (hy.not_dataElement b) h
      obtain ⟨rfl, rfl⟩ := ih h2
      obtain ⟨d1, d2, d3, d4, d5, d6⟩ := d
      obtain ⟨c1, c2, c3, c4, c5, c6⟩ := c
      simp only [Segment.header, DocItem.segment.injEq] at hhead
      simp only at h1
      obtain ⟨rfl, rfl, rfl, rfl, rfl⟩ := hhead
      subst h1
      exact ⟨rfl, rfl⟩

/-- a document goes on with a group at most at depth `d`, or ends -/
def DocEnds (d : Nat) (doc : List DocItem) (depths : List Nat) : Prop :=
  (doc = [] ∧ depths = []) ∨ ∃ g e i doc' k depths', doc = .group g e i :: doc' ∧ depths = k :: depths' ∧ k ≤ d

theorem documentOrder_cons (g : SegmentGroup) (l : List SegmentGroup) :
    documentOrder (g :: l) = g.header :: (g.ownSegments.flatMap Segment.docItems ++ (documentOrder g.children ++ documentOrder l)) := by
  simp [documentOrder, docItems_eq]

theorem DocEnds.groupNext {d doc depths} (h : DocEnds d doc depths) : GroupNext doc := by
  intro x hx
  rcases h with ⟨rfl, _⟩ | ⟨g, e, i, doc', k, ds, rfl, _, _⟩
  · cases hx
  · cases hx; exact ⟨g, e, i, rfl⟩

theorem DocEnds.behind {d doc depths} (h : DocEnds d doc depths) (l : List SegmentGroup) :
    DocEnds (d + 1) (documentOrder l ++ doc) (depthsBelow d l ++ depths) := by
  cases l with
  | nil =>
    rcases h with ⟨rfl, rfl⟩ | ⟨g, e, i, doc', k, ds, rfl, rfl, hk⟩
    · exact .inl ⟨rfl, rfl⟩
    · exact .inr ⟨g, e, i, doc', k, ds, rfl, rfl, by omega⟩
  | cons c l =>
    rw [documentOrder_cons, depthsBelow_cons]
    exact .inr ⟨_, _, _, _, _, _, rfl, rfl, Nat.le_refl _⟩

theorem tree_unique (n : Nat) : ∀ (d : Nat) (l m : List SegmentGroup) (x y : List DocItem) (s t : List Nat),
    (documentOrder l).length ≤ n → HasLists l → HasLists m → DocEnds d x s → DocEnds d y t →
    documentOrder l ++ x = documentOrder m ++ y → depthsBelow d l ++ s = depthsBelow d m ++ t → l = m ∧ x = y ∧ s = t := by
  induction n with
  | zero =>
    intro d l m x y s t hn hl hm hx hy hdoc hdep
    cases l with
    | cons g l => rw [documentOrder_cons] at hn; simp at hn
    | nil =>
      cases m with
      | nil => exact ⟨rfl, hdoc, hdep⟩
      | cons c m =>
        rw [depthsBelow_cons] at hdep
        rcases hx with ⟨_, rfl⟩ | ⟨_, _, _, _, k, ds, _, rfl, hk⟩
        · cases hdep
        · injection hdep with h1 h2; omega
  | succ n ih =>
    intro d l m x y s t hn hl hm hx hy hdoc hdep
    cases l with
    | nil =>
      cases m with
      | nil => exact ⟨rfl, hdoc, hdep⟩
      | cons c m =>
        rw [depthsBelow_cons] at hdep
        rcases hx with ⟨_, rfl⟩ | ⟨_, _, _, _, k, ds, _, rfl, hk⟩
        · cases hdep
        · injection hdep with h1 h2; omega
    | cons g l =>
      cases m with
      | nil =>
        rw [depthsBelow_cons] at hdep
        rcases hy with ⟨_, rfl⟩ | ⟨_, _, _, _, k, ds, _, rfl, hk⟩
        · cases hdep
        · injection hdep with h1 h2; omega
      | cons c m =>
        obtain ⟨ss, gs, hs, hgs, hrec⟩ := (hasLists_iff _).1 hl g (by simp)
        obtain ⟨ss', gs', hs', hgs', hrec'⟩ := (hasLists_iff _).1 hm c (by simp)
        have hl' : HasLists l := (hasLists_append (a := [g])).1 hl |>.2
        have hm' : HasLists m := (hasLists_append (a := [c])).1 hm |>.2
        rw [documentOrder_cons] at hn
        rw [documentOrder_cons, documentOrder_cons] at hdoc
        rw [depthsBelow_cons, depthsBelow_cons] at hdep
        simp only [List.cons_append, List.append_assoc, List.cons.injEq, true_and] at hdoc hdep
        simp only [List.length_cons, List.length_append] at hn
        obtain ⟨hhead, hdoc⟩ := hdoc
        have e1 := hx.behind l
        have e2 := hy.behind m
        have g1 := (e1.behind g.children).groupNext
        have g2 := (e2.behind c.children).groupNext
        obtain ⟨hseg, hdoc⟩ := segments_unique g1 g2 hdoc
        have hc1 : g.children = gs := by simp [children, hgs]
        have hc2 : c.children = gs' := by simp [children, hgs']
        rw [hc1, hc2] at hdoc hdep
        rw [hc1] at hn
        obtain ⟨rfl, hdoc, hdep⟩ := ih (d + 1) gs gs' _ _ _ _ (by omega) hrec hrec' e1 e2 hdoc hdep
        obtain ⟨rfl, hdoc, hdep⟩ := ih d l m x y s t (by omega) hl' hm' hx hy hdoc hdep
        refine ⟨?_, hdoc, hdep⟩
        obtain ⟨a1, a2, a3, a4, a5⟩ := g
        obtain ⟨b1, b2, b3, b4, b5⟩ := c
        simp only [SegmentGroup.segments, SegmentGroup.segmentGroups, ownSegments, SegmentGroup.header, DocItem.group.injEq,
          SegmentGroup.discriminator, SegmentGroup.ahbExpression, SegmentGroup.ahbLineIndex] at hs hs' hgs hgs' hseg hhead
        subst hs hs' hgs hgs'
        obtain ⟨rfl, rfl, rfl⟩ := hhead
        simp only [Option.getD_some] at hseg
        rw [hseg]

theorem documentOrder_unique {l m : List SegmentGroup} (hl : HasLists l) (hm : HasLists m)
    (hdoc : documentOrder l = documentOrder m) (hdep : groupDepths l = groupDepths m) : l = m := by
  rw [groupDepths_eq, groupDepths_eq] at hdep
  exact (tree_unique _ 0 l m [] [] [] [] (Nat.le_refl _) hl hm (.inl ⟨rfl, rfl⟩) (.inl ⟨rfl, rfl⟩) (by simpa using hdoc)
    (by simpa using hdep)).1

/-- the depths of the outermost groups are 1, those of all other groups are larger -/
theorem count_depthsBelow (d : Nat) (l : List SegmentGroup) : (depthsBelow d l).count (d + 1) = l.length ∧ ∀ k ∈ depthsBelow d l, d < k := by
  have hgt : ∀ (d : Nat) (l : List SegmentGroup), ∀ k ∈ depthsBelow d l, d < k := by
    intro d l k hk
    obtain ⟨a, ha, rfl⟩ := List.mem_map.1 hk
    have : a ≠ [] := by
      rintro rfl
      clear hk
      unfold groupAddresses at ha
      generalize 0 = n at ha
      induction l generalizing n with
      | nil => cases ha
      | cons g l ih =>
        simp only [SegmentGroup.addressesList, List.mem_append, List.mem_map] at ha
        rcases ha with ⟨_, _, hx⟩ | ha
        · cases hx
        · exact ih (n + 1) ha
    have := List.length_pos_iff.2 this
    omega
  refine ⟨?_, hgt d l⟩
  induction l with
  | nil => rfl
  | cons g l ih =>
    rw [depthsBelow_cons, List.count_cons_self, List.count_append, ih, List.length_cons]
    have : (depthsBelow (d + 1) g.children).count (d + 1) = 0 := by
      rw [List.count_eq_zero]
      intro hm
      have := hgt (d + 1) g.children _ hm
      omega
    omega

end Verif
