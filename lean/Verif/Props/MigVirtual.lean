import Verif.Model.MigVirtual
import Verif.Spec.MigVirtual
/-!
# C105: unpacking virtual groups
-/

namespace Verif

theorem isVirtualClass_iff (e : Xml) : isVirtualClass e = true ↔ IsVirtualGroup e := by
  unfold isVirtualClass IsVirtualGroup
  simp

theorem isVirtualClass_false (e : Xml) : isVirtualClass e = false ↔ ¬ IsVirtualGroup e := by
  rw [← isVirtualClass_iff]
  simp

theorem virtualGroups_flatMap (cs : List Xml) : ∀ k, ((cs.zipIdx k).filter fun c => isVirtualClass c.1).flatMap (fun c => c.1.children) =
    (cs.filter isVirtualClass).flatMap Xml.children := by
  induction cs with
  | nil => intro k; rfl
  | cons c cs ih =>
    intro k
    rw [List.zipIdx_cons, List.filter_cons, List.filter_cons]
    cases isVirtualClass c <;> simp [ih]

theorem unpackChildren_perm (cs : List Xml) : (unpackChildren cs).Perm
    ((cs.filter isVirtualClass).flatMap Xml.children ++ cs.filter fun c => !isVirtualClass c) := by
  have h := unpackChildren_perm' cs
  unfold virtualGroups at h
  rw [List.flatMap_map, virtualGroups_flatMap] at h
  exact h

theorem unpacked_perm {cs ds : List Xml} (h : UnpackedInPlace cs ds) :
    ds.Perm ((cs.filter isVirtualClass).flatMap Xml.children ++ cs.filter fun c => !isVirtualClass c) := by
  induction h with
  | nil => exact .refl _
  | @group v cs ds h _ ih =>
    rw [List.filter_cons, List.filter_cons, (isVirtualClass_iff v).2 h]
    simp only [if_true, Bool.not_true, Bool.false_eq_true, if_false, List.flatMap_cons, List.append_assoc]
    exact List.Perm.append_left _ ih
  | @other c cs ds h _ ih =>
    rw [List.filter_cons, List.filter_cons, (isVirtualClass_false c).2 h]
    simp only [if_true, Bool.not_false, Bool.false_eq_true, if_false]
    exact (ih.cons c).trans List.perm_middle.symm

theorem unpacked_exists (cs : List Xml) : ∃ ds, UnpackedInPlace cs ds := by
  induction cs with
  | nil => exact ⟨_, .nil⟩
  | cons c cs ih =>
    obtain ⟨ds, h⟩ := ih
    by_cases hc : IsVirtualGroup c
    · exact ⟨_, .group hc h⟩
    · exact ⟨_, .other hc h⟩

/-! ## one parent -/

/-- **C105** the children of a parent after the unpacking are those which the documentation says — each of them as often, but not
necessarily in this order (`C105_order_is_wrong`). -/
theorem C105_same_children_partial (cs ds : List Xml) (h : UnpackedInPlace cs ds) : (unpackChildren cs).Perm ds :=
  (unpackChildren_perm cs).trans (unpacked_perm h).symm

theorem findIdx_identified (pre : List Xml) (c : Xml) (post : List Xml) :
    (identified (pre ++ c :: post)).findIdx (fun d => d.1 == some pre.length) = pre.length := by
  have hlen : (identified (pre ++ c :: post)).length = pre.length + (post.length + 1) := by simp [identified]
  rw [List.findIdx_eq (by omega)]
  constructor
  · simp [identified]
  · intro j hj
    simp [identified]
    omega

theorem virtualGroups_one {pre post : List Xml} {v : Xml} (hv : IsVirtualGroup v) (hpre : ∀ c ∈ pre, ¬ IsVirtualGroup c)
    (hpost : ∀ c ∈ post, ¬ IsVirtualGroup c) : virtualGroups (pre ++ v :: post) = [(pre.length, v)] := by
  unfold virtualGroups
  have h : ∀ (l : List Xml) k, (∀ c ∈ l, ¬ IsVirtualGroup c) → ((l.zipIdx k).filter fun c => isVirtualClass c.1) = [] := by
    intro l k hl
    rw [List.filter_eq_nil_iff]
    intro c hc
    rw [isVirtualClass_iff]
    exact hl _ (List.fst_mem_of_mem_zipIdx hc)
  rw [List.zipIdx_append, List.zipIdx_cons, List.filter_append, List.filter_cons, h _ _ hpre, h _ _ hpost,
    if_pos ((isVirtualClass_iff v).2 hv)]
  simp

theorem insert_at {α : Type} (a b : List α) (x : α) : lxmlInsert (a ++ b) ((a.length + 1 : Nat) - 1 : Int) x = a ++ x :: b := by
  unfold lxmlInsert
  have h : ((a.length + 1 : Nat) - 1 : Int) = (a.length : Int) := by omega
  rw [h, if_pos (by omega)]
  simp

theorem insert_last {α : Type} (a : List α) (y x : α) : lxmlInsert (a ++ [y]) (((0 : Nat) : Int) - 1) x = (a ++ [x]) ++ [y] := by
  unfold lxmlInsert
  rw [if_neg (by omega), if_pos (by simp)]
  simp

theorem moveFields_at (a b : List Child) (fields : List Xml) : ∀ m, moveFields (a.length + 1) (a ++ (m ++ b)) fields =
    a ++ ((fields.reverse.map fun f => ((none, f) : Child)) ++ (m ++ b)) := by
  induction fields with
  | nil => intro m; rfl
  | cons f fields ih =>
    intro m
    have h : moveFields (a.length + 1) (a ++ (m ++ b)) (f :: fields) =
        moveFields (a.length + 1) (lxmlInsert (a ++ (m ++ b)) ((a.length + 1 : Nat) - 1 : Int) (none, f)) fields := rfl
    rw [h, insert_at]
    have := ih ((none, f) :: m)
    rw [List.cons_append] at this
    rw [this]
    simp

theorem moveFields_last (y : Child) (fields : List Xml) : ∀ a : List Child, moveFields 0 (a ++ [y]) fields =
    a ++ ((fields.map fun f => ((none, f) : Child)) ++ [y]) := by
  induction fields with
  | nil => intro m; rfl
  | cons f fields ih =>
    intro a
    have h : moveFields 0 (a ++ [y]) (f :: fields) = moveFields 0 (lxmlInsert (a ++ [y]) (((0 : Nat) : Int) - 1) (none, f)) fields := rfl
    rw [h, insert_last, ih]
    simp

theorem filter_identity (l : List Xml) (k n : Nat) (h : ∀ i, i < l.length → k + i ≠ n) :
    (((l.zipIdx k).map fun c => ((some c.2, c.1) : Child)).filter fun c => !(c.1 == some n)).map Prod.snd = l := by
  rw [List.filter_eq_self.2, List.map_map]
  · have : (Prod.snd ∘ fun c : Xml × Nat => ((some c.2, c.1) : Child)) = Prod.fst := rfl
    rw [this, List.zipIdx_map_fst]
  · intro c hc
    obtain ⟨d, hd, rfl⟩ := List.mem_map.1 hc
    obtain ⟨d1, d2⟩ := d
    have h1 := List.le_snd_of_mem_zipIdx hd
    have h2 := List.snd_lt_add_of_mem_zipIdx hd
    have h3 := h (d2 - k) (by dsimp only at h1 h2; omega)
    simp only [Bool.not_eq_true', beq_eq_false_iff_ne, ne_eq, Option.some.injEq]
    dsimp only at h1
    omega

theorem filter_moved (l : List Xml) (n : Nat) : (((l.map fun f => ((none, f) : Child)).filter fun c => !(c.1 == some n)).map Prod.snd) = l := by
  rw [List.filter_eq_self.2, List.map_map]
  · simp [Function.comp_def]
  · simp

/-- **C105 (exact)** the children of a parent with one virtual group. If the group is the only child, it is replaced by its children,
in their order. If it is the first one of several children, its children are put in front of the last child. If there is a child in front
of it, its children are put in front of that child, in reverse order. -/
theorem C105_one_group (pre post : List Xml) (v : Xml) (hv : IsVirtualGroup v) (hpre : ∀ c ∈ pre, ¬ IsVirtualGroup c)
    (hpost : ∀ c ∈ post, ¬ IsVirtualGroup c) :
    (pre = [] → post = [] → unpackChildren (pre ++ v :: post) = v.children) ∧
    (∀ post' last, pre = [] → post = post' ++ [last] → unpackChildren (pre ++ v :: post) = post' ++ v.children ++ [last]) ∧
    (∀ pre' sibling, pre = pre' ++ [sibling] →
      unpackChildren (pre ++ v :: post) = pre' ++ v.children.reverse ++ [sibling] ++ post) := by
  have hu : unpackChildren (pre ++ v :: post) =
      ((moveFields pre.length (identified (pre ++ v :: post)) v.children).filter fun c => !(c.1 == some pre.length)).map Prod.snd := by
    unfold unpackChildren
    rw [virtualGroups_one hv hpre hpost, List.foldl_cons, List.foldl_nil]
    unfold unpackGroup
    dsimp only
    rw [findIdx_identified]
  refine ⟨?_, ?_, ?_⟩
  · rintro rfl rfl
    rw [hu]
    have h1 : identified ([] ++ [v]) = [] ++ [((some 0, v) : Child)] := rfl
    rw [h1, List.length_nil, moveFields_last, List.nil_append, List.filter_append, List.map_append, filter_moved]
    simp
  · rintro post' last rfl rfl
    rw [hu]
    have h1 : identified ([] ++ v :: (post' ++ [last])) =
        (((some 0, v) : Child) :: ((post'.zipIdx 1).map fun c => ((some c.2, c.1) : Child))) ++ [(some (1 + post'.length), last)] := by
      unfold identified
      rw [List.nil_append, List.zipIdx_cons, List.zipIdx_append]
      simp
    rw [h1, List.length_nil, moveFields_last, List.filter_append, List.map_append, List.filter_append, List.map_append, filter_moved,
      List.filter_cons, if_neg (by simp), filter_identity _ _ _ (by omega)]
    rw [List.filter_cons, if_pos (by simp)]
    simp
  · rintro pre' sibling rfl
    rw [hu]
    have h1 : identified (pre' ++ [sibling] ++ v :: post) = ((pre'.zipIdx 0).map fun c => ((some c.2, c.1) : Child)) ++
        ([] ++ (((some pre'.length, sibling) : Child) :: ((some (pre'.length + 1), v) : Child) ::
          ((post.zipIdx (pre'.length + 2)).map fun c => ((some c.2, c.1) : Child)))) := by
      unfold identified
      rw [List.append_assoc, List.zipIdx_append]
      simp
    have h2 : (pre' ++ [sibling]).length = ((pre'.zipIdx 0).map fun c => ((some c.2, c.1) : Child)).length + 1 := by simp
    rw [h1, h2, moveFields_at, ← h2]
    rw [List.filter_append, List.map_append, List.filter_append, List.map_append, filter_moved, List.nil_append, List.filter_cons,
      if_pos (by simp), List.filter_cons, if_neg (by simp), List.map_cons]
    rw [filter_identity _ _ _ (by intro i hi; simp; omega), filter_identity _ _ _ (by intro i hi; simp; omega)]
    simp

/-- **C105** nothing happens to the children of a parent without virtual groups. -/
theorem C105_no_group (cs : List Xml) (h : ∀ c ∈ cs, ¬ IsVirtualGroup c) : unpackChildren cs = cs := by
  have hg : virtualGroups cs = [] := by
    unfold virtualGroups
    rw [List.map_eq_nil_iff, List.filter_eq_nil_iff]
    intro c hc
    rw [isVirtualClass_iff]
    exact h _ (List.fst_mem_of_mem_zipIdx hc)
  unfold unpackChildren identified
  rw [hg, List.foldl_nil, List.map_map]
  exact List.zipIdx_map_fst _ _

/-! ## the whole tree -/

theorem labelsOf_eq (cs : List Xml) : Xml.labelsOf cs = cs.flatMap Xml.labels := by
  induction cs with
  | nil => rfl
  | cons c cs ih => rw [Xml.labelsOf, ih, List.flatMap_cons]

theorem labels_eq (e : Xml) : e.labels = ⟨e.tag, e.attrib, e.text⟩ :: e.children.flatMap Xml.labels := by
  cases e
  rw [Xml.labels, labelsOf_eq]
  rfl

theorem unpackVirtual_eq (e : Xml) : (unpackVirtual e).tag = e.tag ∧ (unpackVirtual e).attrib = e.attrib ∧ (unpackVirtual e).text = e.text ∧
    (unpackVirtual e).children = (unpackChildren e.children).map unpackVirtual := by
  cases e
  rw [unpackVirtual]
  refine ⟨rfl, rfl, rfl, ?_⟩
  show List.map _ (unpackChildren _).attach = _
  rw [List.attach_map_val (f := unpackVirtual)]
  rfl

theorem isVirtual_label (e : Xml) : Xml.Label.isVirtual ⟨e.tag, e.attrib, e.text⟩ = isVirtualClass e := by
  rw [Bool.eq_iff_iff, isVirtualClass_iff]
  unfold Xml.Label.isVirtual IsVirtualGroup
  simp

/-- the labels of the elements which are no virtual groups -/
def realLabels (e : Xml) : List Xml.Label := e.labels.filter fun l => !l.isVirtual

theorem realLabels_children (e : Xml) : realLabels e = (if isVirtualClass e then [] else [⟨e.tag, e.attrib, e.text⟩]) ++
    e.children.flatMap realLabels := by
  have h : (e.children.flatMap Xml.labels).filter (fun l => !l.isVirtual) = e.children.flatMap realLabels := by
    rw [List.filter_flatMap]; rfl
  unfold realLabels at h ⊢
  rw [labels_eq, List.filter_cons, isVirtual_label, h]
  cases isVirtualClass e <;> rfl

theorem realLabels_unpack (e : Xml) : ∀ n, sizeOf e ≤ n → (realLabels (unpackVirtual e)).Perm (realLabels e) := by
  intro n
  induction n generalizing e with
  | zero => intro h; cases e; simp only [Xml.elem.sizeOf_spec] at h; omega
  | succ n ih =>
    intro hn
    obtain ⟨h1, h2, h3, h4⟩ := unpackVirtual_eq e
    have hv : isVirtualClass (unpackVirtual e) = isVirtualClass e := by unfold isVirtualClass; rw [h1, h2]
    have hsize : ∀ c ∈ e.children, sizeOf c < sizeOf e := by
      intro c hc
      have := List.sizeOf_lt_of_mem hc
      cases e
      simp only [Xml.children, Xml.elem.sizeOf_spec] at this ⊢
      omega
    rw [realLabels_children, realLabels_children e, hv, h1, h2, h3, h4, List.flatMap_map]
    refine List.Perm.append_left _ ?_
    have hstep : ((unpackChildren e.children).flatMap fun c => realLabels (unpackVirtual c)).Perm
        ((unpackChildren e.children).flatMap realLabels) := by
      have : ∀ l : List Xml, (∀ c ∈ l, sizeOf c ≤ n) → (l.flatMap fun c => realLabels (unpackVirtual c)).Perm (l.flatMap realLabels) := by
        intro l
        induction l with
        | nil => intro _; exact .refl _
        | cons c l ihl =>
          intro h
          rw [List.flatMap_cons, List.flatMap_cons]
          exact (ih c (h c (by simp))).append (ihl fun d hd => h d (List.mem_cons_of_mem _ hd))
      refine this _ fun c hc => ?_
      rcases mem_unpackChildren hc with h | ⟨v, hv, h⟩
      · have := hsize c h; omega
      · have h5 := hsize v hv
        have h6 := List.sizeOf_lt_of_mem h
        have h7 : sizeOf v.children < sizeOf v := by
          cases v
          simp only [Xml.children, Xml.elem.sizeOf_spec]
          omega
        omega
    refine hstep.trans ?_
    refine ((unpackChildren_perm e.children).flatMap_right realLabels).trans ?_
    rw [List.flatMap_append]
    generalize e.children = cs
    induction cs with
    | nil => exact .refl _
    | cons c cs ihc =>
      rw [List.filter_cons, List.filter_cons, List.flatMap_cons]
      cases hc : isVirtualClass c with
      | true =>
        simp only [if_true, Bool.not_true, Bool.false_eq_true, if_false, List.flatMap_cons, List.flatMap_append, List.append_assoc]
        refine List.Perm.append ?_ ihc
        rw [realLabels_children c, hc]
        exact .refl _
      | false =>
        simp only [if_true, Bool.not_false, Bool.false_eq_true, if_false, List.flatMap_cons]
        rw [← List.append_assoc]
        refine (List.Perm.append_right _ List.perm_append_comm).trans ?_
        rw [List.append_assoc]
        exact List.Perm.append_left _ ihc

/-- **C105** every element of the document that is no virtual group is in the tree after the unpacking, as often as before, with its
attributes and its text; and there are no further elements that are no virtual groups. -/
theorem C105_elements_kept (e : Xml) :
    ((unpackVirtual e).labels.filter fun l => !l.isVirtual).Perm (e.labels.filter fun l => !l.isVirtual) :=
  realLabels_unpack e _ (Nat.le_refl _)

theorem inTree_trans {a b c : Xml} (h1 : Xml.InTree a b) (h2 : Xml.InTree b c) : Xml.InTree a c := by
  induction h2 with
  | root => exact h1
  | child _ hc ih => exact .child ih hc

/-- **C105** if there is no virtual group directly in a virtual group, then there is no virtual group below the root after the unpacking.
Missing for C105 as stated: a virtual group in a virtual group is not unpacked (`C105_nested_group_remains`). -/
theorem C105_none_remains_partial (root : Xml)
    (h : ∀ v, Xml.InTree v root → IsVirtualGroup v → ∀ c ∈ v.children, ¬ IsVirtualGroup c) :
    ∀ c e, c ∈ (unpackVirtual root).children → Xml.InTree e c → ¬ IsVirtualGroup e := by
  suffices hs : ∀ n (root : Xml), sizeOf root ≤ n → (∀ v, Xml.InTree v root → IsVirtualGroup v → ∀ c ∈ v.children, ¬ IsVirtualGroup c) →
      ∀ c e, c ∈ (unpackVirtual root).children → Xml.InTree e c → ¬ IsVirtualGroup e from hs _ root (Nat.le_refl _) h
  intro n
  induction n with
  | zero => intro r hn; cases r; simp only [Xml.elem.sizeOf_spec] at hn; omega
  | succ n ih =>
    intro r hn h c e hc he
    obtain ⟨h1, h2, h3, h4⟩ := unpackVirtual_eq r
    rw [h4, List.mem_map] at hc
    obtain ⟨d, hd, rfl⟩ := hc
    have hlt : ∀ (p c : Xml), c ∈ p.children → sizeOf c < sizeOf p := by
      intro p c hc
      have := List.sizeOf_lt_of_mem hc
      cases p
      simp only [Xml.children, Xml.elem.sizeOf_spec] at this ⊢
      omega
    have hd' : ¬ IsVirtualGroup d ∧ Xml.InTree d r ∧ sizeOf d < sizeOf r := by
      rw [(unpackChildren_perm r.children).mem_iff, List.mem_append, List.mem_flatMap] at hd
      rcases hd with ⟨v, hv, hdv⟩ | hd
      · obtain ⟨hv1, hv2⟩ := List.mem_filter.1 hv
        have hin : Xml.InTree v r := .child (.root v) hv1
        have := hlt _ _ hv1
        have := hlt _ _ hdv
        exact ⟨h v hin ((isVirtualClass_iff v).1 hv2) d hdv, inTree_trans (.child (.root d) hdv) hin, by omega⟩
      · obtain ⟨hd1, hd2⟩ := List.mem_filter.1 hd
        refine ⟨?_, .child (.root d) hd1, hlt _ _ hd1⟩
        rw [← isVirtualClass_false]
        simpa using hd2
    obtain ⟨g1, g2, _, _⟩ := unpackVirtual_eq d
    cases he with
    | root =>
      unfold IsVirtualGroup
      rw [g1, g2]
      exact hd'.1
    | @child _ c' he hc' =>
      exact ih d (by omega) (fun v hv => h v (inTree_trans hv hd'.2.1)) _ e hc' he

/-! ## counterexamples -/

/-- an element without children -/
def exLeaf (tag : PyStr) : Xml := .elem tag [] none []
/-- a virtual group -/
def exVirtual (children : List Xml) : Xml := .elem py!"class" [(py!"name", py!"x"), (py!"meta.virtual", py!"true")] none children

/-- **C105 is false as stated**: `<root><a/><class meta.virtual="true"><foo/><bar/></class></root>` becomes
`<root><bar/><foo/><a/></root>` instead of `<root><a/><foo/><bar/></root>`. -/
theorem C105_order_is_wrong : ∃ cs ds, UnpackedInPlace cs ds ∧ ds.map Xml.tag = [py!"a", py!"foo", py!"bar"] ∧
    (unpackChildren cs).map Xml.tag = [py!"bar", py!"foo", py!"a"] :=
  ⟨[exLeaf py!"a", exVirtual [exLeaf py!"foo", exLeaf py!"bar"]], _,
    .other (by rw [← isVirtualClass_false]; rfl) (.group ((isVirtualClass_iff _).1 rfl) .nil), rfl, rfl⟩

/-- **C105 is false as stated**: a virtual group in a virtual group remains in the tree. -/
theorem C105_nested_group_remains : ∃ root c, c ∈ (unpackVirtual root).children ∧ IsVirtualGroup c := by
  refine ⟨.elem py!"root" [] none [exVirtual [exVirtual [exLeaf py!"foo"]]], unpackVirtual (exVirtual [exLeaf py!"foo"]), ?_, ?_⟩
  · rw [(unpackVirtual_eq _).2.2.2, List.mem_map]
    exact ⟨_, by exact List.mem_singleton.2 rfl, rfl⟩
  · unfold IsVirtualGroup
    rw [(unpackVirtual_eq _).1, (unpackVirtual_eq _).2.1]
    exact (isVirtualClass_iff _).1 rfl

/-! ## examples -/

/-- the example of the documentation: the group is the only child -/
example : unpackChildren [exVirtual [exLeaf py!"foo", exLeaf py!"bar"]] = [exLeaf py!"foo", exLeaf py!"bar"] :=
  (C105_one_group [] [] _ ((isVirtualClass_iff _).1 rfl) (by simp) (by simp)).1 rfl rfl

/-- a group in front -/
example : unpackChildren [exVirtual [exLeaf py!"foo", exLeaf py!"bar"], exLeaf py!"a", exLeaf py!"b"] =
    [exLeaf py!"a", exLeaf py!"foo", exLeaf py!"bar", exLeaf py!"b"] := rfl

/-- two groups -/
example : (unpackChildren [exVirtual [exLeaf py!"foo", exLeaf py!"bar"], exLeaf py!"a", exVirtual [exLeaf py!"b", exLeaf py!"c"]]).Perm
    [exLeaf py!"foo", exLeaf py!"bar", exLeaf py!"a", exLeaf py!"b", exLeaf py!"c"] :=
  C105_same_children_partial _ _ (.group ((isVirtualClass_iff _).1 rfl) (.other (by rw [← isVirtualClass_false]; rfl)
    (.group ((isVirtualClass_iff _).1 rfl) .nil)))

/-- all virtual groups of a document without nested virtual groups disappear -/
example : ∀ c e, c ∈ (unpackVirtual (.elem py!"root" [] none [exLeaf py!"a", exVirtual [exLeaf py!"foo"]])).children → Xml.InTree e c →
    ¬ IsVirtualGroup e := by
  refine C105_none_remains_partial _ fun v hv hvirt c hc => ?_
  have leaf : ∀ {t e}, Xml.InTree e (exLeaf t) → e = exLeaf t := by
    intro t e h
    cases h with
    | root => rfl
    | child _ hc => cases hc
  cases hv with
  | root => exact absurd ((isVirtualClass_iff _).2 hvirt) (by decide)
  | child h1 hc1 =>
    rcases List.mem_cons.1 hc1 with rfl | hc1
    · rw [leaf h1] at hc; cases hc
    · rcases List.mem_cons.1 hc1 with rfl | hc1
      · cases h1 with
        | root =>
          rcases List.mem_cons.1 hc with rfl | hc
          · rw [← isVirtualClass_false]; rfl
          · cases hc
        | child h2 hc2 =>
          rcases List.mem_cons.1 hc2 with rfl | hc2
          · rw [leaf h2] at hc; cases hc
          · cases hc2
      · cases hc1

end Verif
