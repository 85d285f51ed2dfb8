import Verif.Spec.XmlNs
import Verif.Proofs.PyInt
/-!
# Namespaces are resolved as specified
-/

namespace Verif

theorem splitQName_iff {name p l : PyStr} : splitQName name = some (p, l) ↔
    (p = [] ∧ l = name ∧ NoColon name) ∨ (p ≠ [] ∧ NoColon p ∧ NoColon l ∧ LocalStart l ∧ name = p ++ py!":" ++ l) := by
  unfold splitQName
  constructor
  · intro h
    split at h
    · rename_i l' hs
      obtain ⟨-, h1, h2⟩ := (splitChar_iff _ _ _).1 hs
      cases h
      have h1 : name = l := by simpa [List.intercalate] using h1
      subst h1
      exact .inl ⟨rfl, rfl, h2 _ (by simp)⟩
    · rename_i p' c l' hs
      obtain ⟨-, h1, h2⟩ := (splitChar_iff _ _ _).1 hs
      split at h
      · cases h
      · rename_i hc
        cases h
        refine .inr ⟨fun h => hc (.inl h), h2 _ (by simp), h2 _ (by simp), ⟨c, l', rfl, fun h => hc (.inr h)⟩, ?_⟩
        simpa [List.intercalate] using h1
    · cases h
  · rintro (⟨rfl, rfl, h⟩ | ⟨hne, hp, hl, ⟨c, t, rfl, hc⟩, rfl⟩)
    · rw [splitChar_none h]
    · have : splitChar ':' (p ++ py!":" ++ (c :: t)) = [p, c :: t] := by
        rw [splitChar_iff]
        refine ⟨by simp, by simp [List.intercalate], ?_⟩
        intro q hq
        simp only [List.mem_cons, List.not_mem_nil, or_false] at hq
        rcases hq with rfl | rfl
        · exact hp
        · exact hl
      rw [this]
      show (if p = [] ∨ c ∈ _ then none else _) = _
      rw [if_neg]
      rintro (h | h)
      · exact hne h
      · exact hc h

theorem localStart_ne {p : PyStr} (h : LocalStart p) : p ≠ [] := by
  obtain ⟨c, t, rfl, -⟩ := h
  simp

theorem nsDecl_iff {a : PyStr × PyStr} {p uri : PyStr} : nsDecl a = some (p, uri) ↔ Declares a p uri := by
  obtain ⟨k, v⟩ := a
  unfold nsDecl
  constructor
  · intro h
    split at h
    · rename_i hk
      cases h
      have hk : k = py!"xmlns" := hk
      subst hk
      exact .default
    · split at h
      · rename_i p' l hq
        split at h
        · rename_i hp
          cases h
          subst hp
          rcases splitQName_iff.1 hq with ⟨h, -⟩ | ⟨-, -, h2, h3, h4⟩
          · cases h
          · have h4 : k = py!"xmlns:" ++ p := by simpa using h4
            subst h4
            exact .prefixed h2 h3
        · cases h
      · cases h
  · intro h
    cases h with
    | default => rfl
    | prefixed h hs =>
      have hne : py!"xmlns:" ++ p ≠ py!"xmlns" := by simp
      have hq : splitQName (py!"xmlns:" ++ p) = some (py!"xmlns", p) :=
        splitQName_iff.2 (.inr ⟨by simp, by simp [NoColon], h, hs, by simp⟩)
      show (if py!"xmlns:" ++ p = py!"xmlns" then _ else _) = _
      rw [if_neg hne]
      show (match splitQName (py!"xmlns:" ++ p) with | some (p', l) => if p' = py!"xmlns" then some (l, uri) else none | none => none) = _
      rw [hq]
      rfl

theorem nsDecl_none {a : PyStr × PyStr} : nsDecl a = none ↔ ¬ ∃ p uri, Declares a p uri := by
  constructor
  · rintro h ⟨p, uri, hd⟩
    rw [nsDecl_iff.2 hd] at h
    cases h
  · intro h
    cases hd : nsDecl a with
    | none => rfl
    | some d => exact absurd ⟨d.1, d.2, nsDecl_iff.1 hd⟩ h

theorem nsDeclOk_iff {validUri : PyStr → Bool} {p uri : PyStr} : nsDeclOk validUri (p, uri) = true ↔ DeclarationOk validUri p uri := by
  unfold nsDeclOk DeclarationOk
  by_cases h1 : p = py!"xml"
  · subst h1
    simp
  · by_cases h2 : p = py!"xmlns"
    · subst h2
      simp
    · by_cases h3 : uri = []
      · subst h3
        simp [h1, h2]
      · simp [h1, h2, h3, and_assoc]

/-- the name of a declaring attribute -/
theorem declares_name {a b : PyStr × PyStr} {p u v : PyStr} (h : Declares a p u) (h' : Declares b p v) : a.1 = b.1 := by
  cases h with
  | default =>
    cases h' with
    | default => rfl
    | prefixed _ hs => exact absurd rfl (localStart_ne hs)
  | prefixed _ hs =>
    cases h' with
    | default => exact absurd rfl (localStart_ne hs)
    | prefixed _ _ => rfl

theorem declares_unique {a : PyStr × PyStr} {p q u v : PyStr} (h : Declares a p u) (h' : Declares a q v) : p = q ∧ u = v := by
  have h1 := nsDecl_iff.2 h
  rw [nsDecl_iff.2 h'] at h1
  cases h1
  exact ⟨rfl, rfl⟩

theorem dictGet_decls {attrib : List (PyStr × PyStr)} (hn : (attrib.map Prod.fst).Nodup) (p uri : PyStr) :
    dictGet p (attrib.filterMap nsDecl) = some uri ↔ ∃ a ∈ attrib, Declares a p uri := by
  induction attrib with
  | nil => simp [dictGet]
  | cons a as ih =>
    rw [List.map_cons, List.nodup_cons] at hn
    have ih := ih hn.2
    cases hd : nsDecl a with
    | none =>
      rw [List.filterMap_cons_none hd, ih]
      have := nsDecl_none.1 hd
      constructor
      · rintro ⟨b, hb, h⟩; exact ⟨b, List.mem_cons_of_mem _ hb, h⟩
      · rintro ⟨b, hb, h⟩
        rcases List.mem_cons.1 hb with rfl | hb
        · exact absurd ⟨_, _, h⟩ this
        · exact ⟨b, hb, h⟩
    | some d =>
      obtain ⟨q, v⟩ := d
      have hd' := nsDecl_iff.1 hd
      rw [List.filterMap_cons_some hd, dictGet]
      split
      · rename_i hq
        subst hq
        constructor
        · intro h; cases h; exact ⟨a, by simp, hd'⟩
        · rintro ⟨b, hb, h⟩
          rcases List.mem_cons.1 hb with rfl | hb
          · rw [(declares_unique hd' h).2]
          · exact absurd (declares_name hd' h ▸ List.mem_map_of_mem hb) hn.1
      · rename_i hq
        rw [ih]
        constructor
        · rintro ⟨b, hb, h⟩; exact ⟨b, List.mem_cons_of_mem _ hb, h⟩
        · rintro ⟨b, hb, h⟩
          rcases List.mem_cons.1 hb with rfl | hb
          · exact absurd (declares_unique hd' h).1 hq
          · exact ⟨b, hb, h⟩

theorem dictGet_append_ns (p : PyStr) (a b : List (PyStr × PyStr)) : dictGet p (a ++ b) = (dictGet p a).or (dictGet p b) := by
  induction a with
  | nil => simp [dictGet]
  | cons x a ih =>
    rw [List.cons_append, dictGet, dictGet]
    split
    · rfl
    · exact ih

/-- the bindings stand for the function -/
structure ScopeIs (scope : List (PyStr × PyStr)) (ns : PyStr → Option PyStr) : Prop where
  other : ∀ p, p ≠ py!"xml" → ns p = (dictGet p scope).bind fun u => if u = [] then none else some u
  xml : ns py!"xml" = some xmlUri
  filled : ∀ p, p ≠ [] → dictGet p scope ≠ some []

theorem scopeIs_nil : ScopeIs [] noNamespaces :=
  ⟨fun p h => by simp [noNamespaces, h, dictGet], by simp [noNamespaces], fun p _ => by simp [dictGet]⟩

section
variable {validUri : PyStr → Bool} {scope : List (PyStr × PyStr)} {ns ns' : PyStr → Option PyStr} {attrib : List (PyStr × PyStr)}

theorem scopeIs_step (h : ScopeIs scope ns) (hn : (attrib.map Prod.fst).Nodup)
    (hd : ∀ a ∈ attrib, ∀ p uri, Declares a p uri → DeclarationOk validUri p uri) :
    ScopeIs (attrib.filterMap nsDecl ++ scope) ns' ↔ InScope ns attrib ns' := by
  have hget := fun p uri => dictGet_decls hn p uri
  have hxml : ∀ a ∈ attrib, ∀ uri, Declares a py!"xml" uri → uri = xmlUri := by
    intro a ha uri hx
    rcases hd a ha _ _ hx with ⟨-, h⟩ | ⟨h, -⟩ | ⟨h, -⟩
    · exact h
    · cases h
    · exact absurd rfl h
  have hnone : ∀ p, (¬ ∃ a ∈ attrib, ∃ uri, Declares a p uri) → dictGet p (attrib.filterMap nsDecl) = none := by
    intro p hp
    cases hg : dictGet p (attrib.filterMap nsDecl) with
    | none => rfl
    | some u =>
      obtain ⟨a, ha, hda⟩ := (hget p u).1 hg
      exact absurd ⟨a, ha, u, hda⟩ hp
  constructor
  · intro h'
    intro p
    by_cases hp : p = py!"xml"
    · subst hp
      refine ⟨fun a ha uri hx => ?_, fun _ => by rw [h.xml, h'.xml]⟩
      rw [hxml a ha uri hx, h'.xml]
      rfl
    · refine ⟨fun a ha uri hx => ?_, fun hno => ?_⟩
      · rw [h'.other p hp, dictGet_append_ns, (hget p uri).2 ⟨a, ha, hx⟩]
        rfl
      · rw [h'.other p hp, h.other p hp, dictGet_append_ns, hnone p hno]
        rfl
  · intro h'
    refine ⟨fun p hp => ?_, ?_, fun p hp => ?_⟩
    · rw [dictGet_append_ns]
      by_cases hx : ∃ a ∈ attrib, ∃ uri, Declares a p uri
      · obtain ⟨a, ha, uri, hx⟩ := hx
        rw [(h' p).1 a ha uri hx, (hget p uri).2 ⟨a, ha, hx⟩]
        rfl
      · rw [(h' p).2 hx, hnone p hx, h.other p hp]
        rfl
    · by_cases hx : ∃ a ∈ attrib, ∃ uri, Declares a py!"xml" uri
      · obtain ⟨a, ha, uri, hx⟩ := hx
        rw [(h' _).1 a ha uri hx, hxml a ha uri hx]
        rfl
      · rw [(h' _).2 hx, h.xml]
    · rw [dictGet_append_ns]
      cases hg : dictGet p (attrib.filterMap nsDecl) with
      | none => exact h.filled p hp
      | some u =>
        obtain ⟨a, ha, hda⟩ := (hget p u).1 hg
        rcases hd a ha _ _ hda with ⟨-, rfl⟩ | ⟨h, -⟩ | ⟨-, -, h, -⟩
        · simp [xmlUri]
        · exact absurd h hp
        · simpa using h

/-- the function some bindings stand for -/
def scopeFun (scope : List (PyStr × PyStr)) (p : PyStr) : Option PyStr :=
  if p = py!"xml" then some xmlUri else (dictGet p scope).bind fun u => if u = [] then none else some u

theorem prefixed_iff (h : ScopeIs scope ns) {p l k : PyStr} (hp : p ≠ []) :
    ((if p = py!"xml" then some (clark xmlUri l) else (dictGet p scope).map fun uri => clark uri l) = some k) ↔
      ∃ uri, ns p = some uri ∧ k = py!"{" ++ uri ++ py!"}" ++ l := by
  by_cases hx : p = py!"xml"
  · subst hx
    rw [if_pos rfl, h.xml]
    constructor
    · intro h; cases h; exact ⟨_, rfl, by simp [clark]⟩
    · rintro ⟨uri, h, rfl⟩; cases h; simp [clark]
  · rw [if_neg hx, h.other p hx]
    have hf := h.filled p hp
    cases hg : dictGet p scope with
    | none => simp
    | some u =>
      rw [hg] at hf
      have hu : u ≠ [] := fun h => hf (by rw [h])
      simp only [Option.map_some, Option.some.injEq, Option.bind_some, if_neg hu]
      constructor
      · rintro rfl; exact ⟨u, rfl, by simp [clark]⟩
      · rintro ⟨uri, rfl, rfl⟩; simp [clark]

theorem elementName_iff (h : ScopeIs scope ns) {name k : PyStr} : expandName scope true name = some k ↔ ElementName ns name k := by
  unfold expandName
  have hdef := h.other [] (by simp)
  constructor
  · intro hk
    cases hq : splitQName name with
    | none => rw [hq] at hk; cases hk
    | some pl =>
      obtain ⟨p, l⟩ := pl
      rw [hq] at hk
      simp only at hk
      rcases splitQName_iff.1 hq with ⟨rfl, rfl, hc⟩ | ⟨hne, h1, h2, h3, rfl⟩
      · simp only [if_true] at hk
        cases hg : dictGet [] scope with
        | none =>
          rw [hg] at hk hdef
          cases hk
          exact .plain hc hdef
        | some u =>
          rw [hg] at hk hdef
          simp only [Option.bind_some] at hk hdef
          split at hk
          · rename_i hu
            rw [if_pos hu] at hdef
            cases hk
            exact .plain hc hdef
          · rename_i hu
            rw [if_neg hu] at hdef
            cases hk
            have := ElementName.default hc hdef
            simpa [clark] using this
      · rw [if_neg hne] at hk
        obtain ⟨uri, hu, rfl⟩ := (prefixed_iff h hne).1 hk
        exact .prefixed h1 hne h2 h3 hu
  · intro hk
    cases hk with
    | plain hc hu =>
      rw [splitQName_iff.2 (.inl ⟨rfl, rfl, hc⟩)]
      simp only [if_true]
      rw [hu] at hdef
      cases hg : dictGet [] scope with
      | none => rfl
      | some u =>
        rw [hg] at hdef
        simp only [Option.bind_some] at hdef
        split at hdef
        · rename_i hu; simp only [if_pos hu]
        · cases hdef
    | @default l uri hc hu =>
      rw [splitQName_iff.2 (.inl ⟨rfl, rfl, hc⟩)]
      simp only [if_true]
      rw [hu] at hdef
      cases hg : dictGet [] scope with
      | none => rw [hg] at hdef; cases hdef
      | some u =>
        rw [hg] at hdef
        simp only [Option.bind_some] at hdef
        split at hdef
        · cases hdef
        · rename_i hu
          cases hdef
          simp [hu, clark]
    | prefixed h1 hne h2 h3 hu =>
      rw [splitQName_iff.2 (.inr ⟨hne, h1, h2, h3, rfl⟩)]
      simp only
      rw [if_neg hne]
      exact (prefixed_iff h hne).2 ⟨_, hu, rfl⟩

theorem attributeName_iff (h : ScopeIs scope ns) {name k : PyStr} : expandName scope false name = some k ↔ AttributeName ns name k := by
  unfold expandName
  constructor
  · intro hk
    cases hq : splitQName name with
    | none => rw [hq] at hk; cases hk
    | some pl =>
      obtain ⟨p, l⟩ := pl
      rw [hq] at hk
      simp only at hk
      rcases splitQName_iff.1 hq with ⟨rfl, rfl, hc⟩ | ⟨hne, h1, h2, h3, rfl⟩
      · rw [if_pos rfl] at hk
        cases hk
        exact .plain hc
      · rw [if_neg hne] at hk
        obtain ⟨uri, hu, rfl⟩ := (prefixed_iff h hne).1 hk
        exact .prefixed h1 hne h2 h3 hu
  · intro hk
    cases hk with
    | plain hc =>
      rw [splitQName_iff.2 (.inl ⟨rfl, rfl, hc⟩)]
      rfl
    | prefixed h1 hne h2 h3 hu =>
      rw [splitQName_iff.2 (.inr ⟨hne, h1, h2, h3, rfl⟩)]
      simp only
      rw [if_neg hne]
      exact (prefixed_iff h hne).2 ⟨_, hu, rfl⟩

theorem attributeNames_iff (h : ScopeIs scope ns) {as bs : List (PyStr × PyStr)} :
    expandAttribs scope as = some bs ↔ AttributeNames ns as bs := by
  induction as generalizing bs with
  | nil =>
    constructor
    · intro h; cases h; exact .nil
    · intro h; cases h; rfl
  | cons a as ih =>
    obtain ⟨k, v⟩ := a
    rw [expandAttribs]
    cases hd : nsDecl (k, v) with
    | some d =>
      have hd' : ∃ p uri, Declares (k, v) p uri := ⟨d.1, d.2, nsDecl_iff.1 hd⟩
      simp only
      rw [ih]
      constructor
      · intro h; exact .declaration hd' h
      · intro h
        cases h with
        | declaration _ h => exact h
        | cons hn => exact absurd hd' hn
    | none =>
      have hd' := nsDecl_none.1 hd
      simp only
      constructor
      · intro h'
        cases hk : expandName scope false k with
        | none => rw [hk] at h'; cases h'
        | some k' =>
          cases hr : expandAttribs scope as with
          | none => rw [hk, hr] at h'; cases h'
          | some rest =>
            rw [hk, hr] at h'
            cases h'
            exact .cons hd' ((attributeName_iff h).1 hk) (ih.1 hr)
      · intro h'
        cases h' with
        | declaration hn _ => exact absurd hn hd'
        | cons _ hk hr => rw [(attributeName_iff h).2 hk, ih.2 hr]

end

mutual
/-- the names of the attributes of an element differ, at any depth -/
inductive DistinctAttribs : Xml → Prop
  | mk {tag : PyStr} {attrib : List (PyStr × PyStr)} {text : Option PyStr} {children : List Xml} (h : (attrib.map Prod.fst).Nodup)
      (hc : DistinctAttribsList children) : DistinctAttribs (.elem tag attrib text children)
inductive DistinctAttribsList : List Xml → Prop
  | nil : DistinctAttribsList []
  | cons {x : Xml} {xs : List Xml} (h : DistinctAttribs x) (hs : DistinctAttribsList xs) : DistinctAttribsList (x :: xs)
end

mutual
theorem resolveNs_iff (validUri : PyStr → Bool) : ∀ (x : Xml), DistinctAttribs x → ∀ {scope : List (PyStr × PyStr)} {ns : PyStr → Option PyStr},
    ScopeIs scope ns → ∀ y, resolveNs validUri scope x = some y ↔ Expanded validUri ns x y
  | .elem tag attrib text children, hx, scope, ns, hsc, y => by
    cases hx with
    | mk hn hcd =>
    rw [resolveNs]
    have hall : (attrib.filterMap nsDecl).all (nsDeclOk validUri) = true ↔
        ∀ a ∈ attrib, ∀ p uri, Declares a p uri → DeclarationOk validUri p uri := by
      rw [List.all_eq_true]
      constructor
      · intro h a ha p uri hd
        exact nsDeclOk_iff.1 (h (p, uri) (List.mem_filterMap.2 ⟨a, ha, nsDecl_iff.2 hd⟩))
      · intro h d hd
        obtain ⟨a, ha, hda⟩ := List.mem_filterMap.1 hd
        exact nsDeclOk_iff.2 (h a ha _ _ (nsDecl_iff.1 hda))
    by_cases hok : (attrib.filterMap nsDecl).all (nsDeclOk validUri) = true
    · have hd := hall.1 hok
      simp only [if_pos hok]
      have hstep : ∀ {ns'}, ScopeIs (attrib.filterMap nsDecl ++ scope) ns' ↔ InScope ns attrib ns' := scopeIs_step hsc hn hd
      constructor
      · intro h
        have hs' : ScopeIs (attrib.filterMap nsDecl ++ scope) (scopeFun (attrib.filterMap nsDecl ++ scope)) := by
          refine ⟨fun p hp => by simp [scopeFun, hp], by simp [scopeFun], fun p hp => ?_⟩
          rw [dictGet_append_ns]
          cases hg : dictGet p (attrib.filterMap nsDecl) with
          | none => exact hsc.filled p hp
          | some u =>
            obtain ⟨a, ha, hda⟩ := (dictGet_decls hn p u).1 hg
            rcases hd a ha _ _ hda with ⟨-, rfl⟩ | ⟨h, -⟩ | ⟨-, -, h, -⟩
            · simp [xmlUri]
            · exact absurd h hp
            · simpa using h
        split at h
        · rename_i t' a' c' ht ha hc
          split at h
          · rename_i hnd
            cases h
            exact .mk hd (hstep.1 hs') ((elementName_iff hs').1 ht) ((attributeNames_iff hs').1 ha) hnd
              ((resolveNss_iff validUri children hcd hs' _).1 hc)
          · cases h
        · cases h
      · intro h
        cases h with
        | mk _ hs ht ha hnd hc =>
          have hs' := hstep.2 hs
          rw [(elementName_iff hs').2 ht, (attributeNames_iff hs').2 ha, (resolveNss_iff validUri children hcd hs' _).2 hc]
          simp only [if_pos hnd]
    · simp only [if_neg hok]
      constructor
      · intro h; cases h
      · intro h
        cases h with
        | mk hd _ _ _ _ _ => exact absurd (hall.2 hd) hok
theorem resolveNss_iff (validUri : PyStr → Bool) : ∀ (xs : List Xml), DistinctAttribsList xs →
    ∀ {scope : List (PyStr × PyStr)} {ns : PyStr → Option PyStr}, ScopeIs scope ns →
    ∀ ys, resolveNss validUri scope xs = some ys ↔ ExpandedList validUri ns xs ys
  | [], _, _, _, _, ys => by
    rw [resolveNss]
    constructor
    · intro h; cases h; exact .nil
    · intro h; cases h; rfl
  | x :: xs, hx, scope, ns, hsc, ys => by
    cases hx with
    | cons h1 h2 =>
    rw [resolveNss]
    constructor
    · intro h
      split at h
      · rename_i y' ys' hy hys
        cases h
        exact .cons ((resolveNs_iff validUri x h1 hsc _).1 hy) ((resolveNss_iff validUri xs h2 hsc _).1 hys)
      · cases h
    · intro h
      cases h with
      | cons h h' => rw [(resolveNs_iff validUri x h1 hsc _).2 h, (resolveNss_iff validUri xs h2 hsc _).2 h']
end

mutual
theorem resolveNs_free (validUri : PyStr → Bool) : ∀ (x : Xml), DistinctAttribs x → NsFree x → resolveNs validUri [] x = some x
  | .elem tag attrib text children, hx, hf => by
    cases hx with
    | mk hn hcd =>
    cases hf with
    | mk ht ha hc =>
    have hnone : ∀ a ∈ attrib, nsDecl a = none := by
      intro a haa
      rw [nsDecl_none]
      rintro ⟨p, uri, hd⟩
      obtain ⟨h1, h2⟩ := ha a haa
      cases hd with
      | default => exact h2 rfl
      | prefixed _ _ => exact h1 (by simp)
    have hdecl : attrib.filterMap nsDecl = [] := List.filterMap_eq_nil_iff.2 hnone
    have hat : ∀ {l : List (PyStr × PyStr)}, (∀ a ∈ l, nsDecl a = none ∧ NoColon a.1) → expandAttribs [] l = some l := by
      intro l hl
      induction l with
      | nil => rfl
      | cons a l ih =>
        obtain ⟨h1, h2⟩ := hl a (by simp)
        rw [expandAttribs, h1]
        simp only
        rw [(attributeName_iff scopeIs_nil).2 (.plain h2), ih fun b hb => hl b (by simp [hb])]
    rw [resolveNs, hdecl]
    simp only [List.all_nil, if_true, List.nil_append]
    rw [(elementName_iff scopeIs_nil).2 (.plain ht rfl), hat fun a h => ⟨hnone a h, (ha a h).1⟩, resolveNss_free validUri children hcd hc]
    simp only [if_pos hn]
theorem resolveNss_free (validUri : PyStr → Bool) : ∀ (xs : List Xml), DistinctAttribsList xs → NsFreeList xs → resolveNss validUri [] xs = some xs
  | [], _, _ => rfl
  | x :: xs, hx, hf => by
    cases hx with
    | cons h1 h2 =>
    cases hf with
    | cons g1 g2 => rw [resolveNss, resolveNs_free validUri x h1 g1, resolveNss_free validUri xs h2 g2]
end

mutual
theorem distinct_of_element : ∀ {s : PyStr} {x : Xml}, XmlElement s x → DistinctAttribs x
  | _, _, .empty _ _ hd _ => .mk hd .nil
  | _, _, .full _ _ hd _ _ hs => .mk hd (distinct_of_content hs)
theorem distinct_of_content : ∀ {s d : PyStr} {xs : List Xml}, XmlContent s d xs → DistinctAttribsList xs
  | _, _, _, .nil => .nil
  | _, _, _, .char _ _ _ ht => distinct_of_content ht
  | _, _, _, .ref _ ht => distinct_of_content ht
  | _, _, _, .cdata _ _ ht => distinct_of_content ht
  | _, _, _, .comment _ ht => distinct_of_content ht
  | _, _, _, .pi _ ht => distinct_of_content ht
  | _, _, _, .elem hs ht => .cons (distinct_of_element hs) (distinct_of_content ht)
end

theorem distinct_of_document {s : PyStr} {x : Xml} (h : XmlDocument s x) : DistinctAttribs x := by
  obtain ⟨_, _, _, _, _, _, _, he, _⟩ := h
  exact distinct_of_element he

end Verif
