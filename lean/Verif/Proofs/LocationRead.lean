import Verif.Spec.LocationRead
import Verif.Props.XmlText
import Verif.Proofs.Dict
/-!
# Lemmas: reading locations from XML
-/

namespace Verif

theorem dictGet_dictSet {κ α : Type} [DecidableEq κ] (k k' : κ) (v : α) (d : List (κ × α)) :
    dictGet k (dictSet k' v d) = if k' = k then some v else dictGet k d := by
  induction d with
  | nil => rfl
  | cons p d ih =>
    obtain ⟨a, b⟩ := p
    rw [dictSet]
    split
    · rename_i h
      subst h
      simp only [dictGet]
      split <;> simp_all
    · rename_i h
      simp only [dictGet, ih]
      split
      · rename_i h'; subst h'; rw [if_neg (Ne.symm h)]
      · rfl

/-- one more value for a key -/
def joinVal (o : Option XVal) (v : XVal) : Option XVal :=
  match o with
  | none => some v
  | some (.list l) => some (.list (l ++ [v]))
  | some u => some (.list [u, v])

theorem joinVal_some (o : Option XVal) (v : XVal) : ∃ w, joinVal o v = some w := by
  unfold joinVal
  split <;> exact ⟨_, rfl⟩

theorem pushData_eq (item : Option (List (PyStr × XVal))) (k : PyStr) (v : XVal) :
    ∃ w, joinVal (dictGet k (item.getD [])) v = some w ∧ pushData item k v = dictSet k w (item.getD []) := by
  unfold pushData joinVal
  dsimp only
  generalize dictGet k (item.getD []) = o
  cases o with
  | none => exact ⟨_, rfl, rfl⟩
  | some u => cases u <;> exact ⟨_, rfl, rfl⟩

theorem dictGet_pushData (item : Option (List (PyStr × XVal))) (k k' : PyStr) (v : XVal) :
    dictGet k (pushData item k' v) = if k' = k then joinVal (dictGet k (item.getD [])) v else dictGet k (item.getD []) := by
  obtain ⟨w, h1, h2⟩ := pushData_eq item k' v
  rw [h2, dictGet_dictSet]
  split
  · rename_i h; subst h; exact h1.symm
  · rfl

theorem keys_pushData (item : Option (List (PyStr × XVal))) (k k' : PyStr) (v : XVal) :
    k ∈ (pushData item k' v).map Prod.fst ↔ k = k' ∨ k ∈ (item.getD []).map Prod.fst := by
  obtain ⟨w, -, h2⟩ := pushData_eq item k' v
  rw [h2, mem_keys_dictSet]

/-- the entries of attributes -/
def isAttrKey (p : PyStr × XVal) : Bool := match p.1 with
  | '@' :: _ => true
  | _ => false

theorem filter_dictSet (k : PyStr) (v : XVal) (d : List (PyStr × XVal)) (h : ∀ t, k ≠ '@' :: t) :
    (dictSet k v d).filter isAttrKey = d.filter isAttrKey := by
  have hk : ∀ v, isAttrKey (k, v) = false := by
    intro v
    unfold isAttrKey
    split
    · rename_i t ht; exact absurd ht (h t)
    · rfl
  induction d with
  | nil => simp [dictSet, hk]
  | cons p d ih =>
    obtain ⟨a, b⟩ := p
    rw [dictSet]
    split
    · rename_i ha
      subst ha
      rw [List.filter_cons, List.filter_cons, hk, hk]; rfl
    · rw [List.filter_cons, List.filter_cons, ih]

theorem filter_pushData (item : Option (List (PyStr × XVal))) (k : PyStr) (v : XVal) (h : ∀ t, k ≠ '@' :: t) :
    (pushData item k v).filter isAttrKey = (item.getD []).filter isAttrKey := by
  obtain ⟨w, -, h2⟩ := pushData_eq item k v
  rw [h2]
  exact filter_dictSet _ _ _ h

theorem pushChildren_cons (item : Option (List (PyStr × XVal))) (x : Xml) (xs : List Xml) :
    Xml.pushChildren item (x :: xs) = Xml.pushChildren (some (pushData item x.tag x.toValue)) xs := by
  cases x; rw [Xml.pushChildren]; rfl

theorem pushChildren_facts (xs : List Xml) : ∀ item : Option (List (PyStr × XVal)),
    (Xml.pushChildren item xs = none ↔ item = none ∧ xs = []) ∧
    (∀ k, dictGet k ((Xml.pushChildren item xs).getD []) =
      ((xs.filter fun x => x.tag = k).map Xml.toValue).foldl joinVal (dictGet k (item.getD []))) ∧
    (∀ k, k ∈ ((Xml.pushChildren item xs).getD []).map Prod.fst ↔ k ∈ (item.getD []).map Prod.fst ∨ ∃ x ∈ xs, x.tag = k) ∧
    ((∀ x ∈ xs, ∀ t, x.tag ≠ '@' :: t) →
      ((Xml.pushChildren item xs).getD []).filter isAttrKey = (item.getD []).filter isAttrKey) := by
  induction xs with
  | nil => intro item; simp [Xml.pushChildren]
  | cons x xs ih =>
    intro item
    rw [pushChildren_cons]
    obtain ⟨h1, h2, h3, h4⟩ := ih (some (pushData item x.tag x.toValue))
    refine ⟨by rw [h1]; simp, ?_, ?_, ?_⟩
    · intro k
      rw [h2, List.filter_cons, Option.getD_some, dictGet_pushData]
      by_cases h : x.tag = k
      · simp [h]
      · simp [h]
    · intro k
      rw [h3, Option.getD_some, keys_pushData]
      simp only [List.mem_cons, exists_eq_or_imp]
      constructor
      · rintro ((rfl | h) | h)
        · exact .inr (.inl rfl)
        · exact .inl h
        · exact .inr (.inr h)
      · rintro (h | rfl | h)
        · exact .inl (.inr h)
        · exact .inl (.inl rfl)
        · exact .inr h
    · intro h
      rw [h4 (fun y hy => h y (by simp [hy])), Option.getD_some, filter_pushData _ _ _ (h x (by simp))]

/-- the values of the children of one name -/
def grouped : List XVal → Option XVal
  | [] => none
  | [v] => some v
  | vs => some (.list vs)

theorem toValue_notList (x : Xml) : ∀ l, x.toValue ≠ .list l := by
  intro l
  obtain ⟨tag, a, s, c⟩ := x
  rw [Xml.toValue]
  cases Xml.pushChildren (attrItem a) c <;> cases xmlData s <;> simp [elementValue]

theorem foldl_joinVal (vs : List XVal) (h : ∀ v ∈ vs, ∀ l, v ≠ .list l) : vs.foldl joinVal none = grouped vs := by
  have step : ∀ (vs l : List XVal), vs.foldl joinVal (some (.list l)) = some (.list (l ++ vs)) := by
    intro vs
    induction vs with
    | nil => intro l; simp
    | cons v vs ih => intro l; rw [List.foldl_cons, joinVal, ih]; simp
  match vs with
  | [] => rfl
  | [v] => rfl
  | v :: w :: vs =>
    rw [List.foldl_cons, List.foldl_cons]
    have : joinVal (joinVal none v) w = some (.list [v, w]) := by
      have := h v (by simp)
      cases v with
      | list l => exact absurd rfl (this l)
      | _ => rfl
    rw [this, step]
    rfl

theorem attrItem_facts (a : List (PyStr × PyStr)) : (attrItem a = none ↔ a = []) ∧
    (attrItem a).getD [] = a.map fun p => ('@' :: p.1, XVal.str p.2) := by
  unfold attrItem
  cases a <;> simp

theorem attr_keys (a : List (PyStr × PyStr)) (k : PyStr) :
    k ∈ (a.map fun p => ('@' :: p.1, XVal.str p.2)).map Prod.fst ↔ ∃ p ∈ a, k = '@' :: p.1 := by
  rw [List.map_map, List.mem_map]
  constructor <;> rintro ⟨p, hp, h⟩ <;> exact ⟨p, hp, h.symm⟩

theorem dictGet_attrs (a : List (PyStr × PyStr)) (k : PyStr) (h : ∀ t, k ≠ '@' :: t) :
    dictGet k (a.map fun p => ('@' :: p.1, XVal.str p.2)) = none := by
  induction a with
  | nil => rfl
  | cons p a ih => rw [List.map_cons, dictGet, if_neg (fun e => h _ e.symm), ih]

/-- a name that can be that of an element -/
def ElementKey (k : PyStr) : Prop := (∀ t, k ≠ '@' :: t) ∧ ∀ t, k ≠ '#' :: t

theorem elementKey_of_name {k : PyStr} (h : XmlName k) : ElementKey k := by
  obtain ⟨c, t, rfl, hc, -⟩ := (xmlName_iff' _).1 h
  constructor <;> intro u hu <;> (cases hu; exact absurd hc (by decide))

/-- the value of an element without attributes and children -/
def textVal (o : Option PyStr) : XVal := match o with
  | none => .none
  | some s => .str s

/-- what the dictionary of an element looks like -/
structure DictOf (e : Xml) (d : List (PyStr × XVal)) : Prop where
  get : ∀ k, ElementKey k → dictGet k d = grouped ((e.children.filter fun x => x.tag = k).map Xml.toValue)
  keys : ∀ k, k ∈ d.map Prod.fst ↔ (∃ p ∈ e.attrib, k = '@' :: p.1) ∨ (∃ x ∈ e.children, x.tag = k) ∨
    (k = py!"#text" ∧ trimText e.text ≠ none)
  attrs : (∀ x ∈ e.children, ElementKey x.tag) → d.filter isAttrKey = e.attrib.map fun p => ('@' :: p.1, XVal.str p.2)

theorem toValue_cases (e : Xml) :
    (e.attrib = [] ∧ e.children = [] ∧ e.toValue = textVal (trimText e.text)) ∨
    (¬ (e.attrib = [] ∧ e.children = []) ∧ ∃ d, e.toValue = .dict d ∧ DictOf e d) := by
  obtain ⟨tag, a, t, c⟩ := e
  simp only [Xml.attrib, Xml.children, Xml.text]
  rw [Xml.toValue]
  obtain ⟨h1, h2, h3, h4⟩ := pushChildren_facts c (attrItem a)
  obtain ⟨a1, a2⟩ := attrItem_facts a
  rw [a1] at h1
  rw [a2] at h2 h3 h4
  have hf : (a.map fun p => ('@' :: p.1, XVal.str p.2)).filter isAttrKey = a.map fun p => ('@' :: p.1, XVal.str p.2) := by
    rw [List.filter_eq_self]
    intro p hp
    obtain ⟨q, -, rfl⟩ := List.mem_map.1 hp
    rfl
  rw [hf] at h4
  have hget : ∀ k, ElementKey k → dictGet k ((Xml.pushChildren (attrItem a) c).getD []) =
      grouped ((c.filter fun x => x.tag = k).map Xml.toValue) := by
    intro k hk
    rw [h2, dictGet_attrs a k hk.1, foldl_joinVal]
    intro v hv
    obtain ⟨x, -, rfl⟩ := List.mem_map.1 hv
    exact toValue_notList x
  rw [xmlData_eq]
  cases hp : Xml.pushChildren (attrItem a) c with
  | none =>
    obtain ⟨rfl, rfl⟩ := h1.1 hp
    exact .inl ⟨rfl, rfl, by cases trimText t <;> rfl⟩
  | some d =>
    right
    refine ⟨fun h => (by rw [h1.2 h] at hp; cases hp), ?_⟩
    rw [hp, Option.getD_some] at h3 h4 hget
    cases ht : trimText t with
    | none =>
      refine ⟨d, rfl, hget, ?_, fun h => h4 fun x hx => (h x hx).1⟩
      intro k
      rw [h3, attr_keys]
      simp only [Xml.attrib, Xml.children, Xml.text, ht, ne_eq, not_true, and_false, or_false]
    | some s =>
      refine ⟨_, rfl, ?_, ?_, ?_⟩
      · intro k hk
        rw [dictGet_pushData, if_neg (fun e => hk.2 _ e.symm)]
        exact hget k hk
      · intro k
        rw [keys_pushData, Option.getD_some, h3, attr_keys]
        simp only [Xml.attrib, Xml.children, Xml.text, ht, ne_eq, reduceCtorEq, not_false_eq_true, and_true]
        rw [or_comm, or_assoc]
      · intro h
        rw [filter_pushData _ _ _ (by intro u hu; cases hu)]
        exact h4 fun x hx => (h x hx).1

theorem isNil_iff {e : Xml} (hn : ∀ x ∈ e.children, ElementKey x.tag) : isNil e.toValue = true ↔ MarkedNil e := by
  rcases toValue_cases e with ⟨h1, h2, h3⟩ | ⟨-, d, hd, h⟩
  · rw [h3, MarkedNil, h1]
    cases trimText e.text <;> simp [textVal, isNil]
  · rw [hd, isNil, List.any_eq_true]
    have hattr := h.attrs hn
    constructor
    · rintro ⟨⟨k, v⟩, hm, hp⟩
      simp only [Bool.and_eq_true, List.isPrefixOf_iff_prefix, List.isSuffixOf_iff_suffix] at hp
      obtain ⟨⟨⟨t, ht⟩, hs⟩, hv⟩ := hp
      have hk : isAttrKey (k, v) = true := by
        unfold isAttrKey; simp only [← ht]; rfl
      have hm' : (k, v) ∈ e.attrib.map fun p => ('@' :: p.1, XVal.str p.2) := by
        rw [← hattr]; exact List.mem_filter.2 ⟨hm, hk⟩
      obtain ⟨⟨k', v'⟩, hm'', heq⟩ := List.mem_map.1 hm'
      simp only [Prod.mk.injEq] at heq
      obtain ⟨rfl, rfl⟩ := heq
      simp only [beq_iff_eq] at hv
      subst hv
      have hk' : k' = py!"ns" ++ t := (List.cons.inj ht).2.symm
      subst hk'
      obtain ⟨u, hu⟩ := hs
      -- the suffix lies behind the prefix
      have hlen : 3 ≤ u.length := by
        rcases u with _ | ⟨c0, _ | ⟨c1, _ | ⟨c2, u⟩⟩⟩
        · exact absurd (List.cons.inj hu).1 (by decide)
        · exact absurd (List.cons.inj (List.cons.inj hu).2).1 (by decide)
        · exact absurd (List.cons.inj (List.cons.inj (List.cons.inj hu).2).2).1 (by decide)
        · simp
      rcases u with _ | ⟨c0, _ | ⟨c1, _ | ⟨c2, u⟩⟩⟩
      · simp at hlen
      · simp at hlen
      · simp at hlen
      · refine ⟨u, ?_⟩
        have : t = u ++ py!":nil" := (List.cons.inj (List.cons.inj (List.cons.inj hu).2).2).2.symm
        rw [this] at hm''
        simpa using hm''
    · rintro ⟨mid, hm⟩
      have hm' : ('@' :: (py!"ns" ++ mid ++ py!":nil"), XVal.str py!"true") ∈ d.filter isAttrKey := by
        rw [hattr]; exact List.mem_map.2 ⟨_, hm, rfl⟩
      refine ⟨_, (List.mem_filter.1 hm').1, ?_⟩
      simp only [Bool.and_eq_true, List.isPrefixOf_iff_prefix, List.isSuffixOf_iff_suffix, beq_self_eq_true, and_true]
      exact ⟨⟨mid ++ py!":nil", by simp⟩, ⟨'@' :: (py!"ns" ++ mid), by simp⟩⟩

/-! ## fields -/

/-- a nil element becomes `None` -/
def cleanNil (v : XVal) : XVal := if isNil v then .none else v

theorem dictGet_map (k : PyStr) (f : XVal → XVal) (d : List (PyStr × XVal)) :
    dictGet k (d.map fun p => (p.1, f p.2)) = (dictGet k d).map f := by
  induction d with
  | nil => rfl
  | cons p d ih =>
    rw [List.map_cons, dictGet, dictGet, ih]
    split <;> rfl

theorem clean_optional {c : Xml} (hn : ∀ x ∈ c.children, ElementKey x.tag) (v : Option PyStr) :
    cleanNil c.toValue = textVal v ↔ OptionalText c v := by
  have hnil := isNil_iff hn
  unfold cleanNil OptionalText
  rcases toValue_cases c with ⟨h1, h2, h3⟩ | ⟨h1, d, hd, -⟩
  · have hm : ¬ MarkedNil c := by rintro ⟨mid, h⟩; rw [h1] at h; simp at h
    rw [if_neg (by rw [hnil]; exact hm), h3]
    simp only [hm, h1, h2, false_and, not_false_eq_true, true_and, false_or]
    constructor
    · intro h
      cases hv : v <;> cases ht : trimText c.text <;> rw [hv, ht] at h <;> simp [textVal] at h ⊢
      exact h.symm
    · rintro rfl; rfl
  · by_cases hm : MarkedNil c
    · rw [if_pos (hnil.2 hm)]
      simp only [hm, true_and, not_true, false_and, or_false]
      cases v <;> simp [textVal]
    · rw [if_neg (by rw [hnil]; exact hm), hd]
      simp only [hm, false_and, not_false_eq_true, true_and, false_or]
      constructor
      · intro h; cases v <;> simp [textVal] at h
      · rintro ⟨ha, hc, -⟩; exact absurd ⟨ha, hc⟩ h1

theorem strArg_val (d : List (PyStr × XVal)) (key : PyStr) (r : Bool) (v : Option PyStr) :
    strArg d key r = .ok v ↔ dictGet key d = some (textVal v) ∨ (r = false ∧ dictGet key d = none ∧ v = none) := by
  unfold strArg
  cases hg : dictGet key d with
  | none => cases r <;> simp [eq_comm]
  | some x => cases x <;> cases v <;> simp [textVal]

/-- the children with the given name -/
def Xml.named (e : Xml) (k : PyStr) : List Xml := e.children.filter fun x => x.tag = k

theorem strArg_field {e : Xml} {d : List (PyStr × XVal)} {key : PyStr} (hd : dictGet key d = grouped ((e.named key).map Xml.toValue))
    (hn : ∀ c ∈ e.children, ∀ x ∈ c.children, ElementKey x.tag) (r : Bool) (v : Option PyStr) :
    strArg (d.map fun p => (p.1, cleanNil p.2)) key r = .ok v ↔
      (∃ c, e.named key = [c] ∧ OptionalText c v) ∨ (r = false ∧ e.named key = [] ∧ v = none) := by
  rw [strArg_val, dictGet_map, hd]
  have hmem : ∀ c ∈ e.named key, ∀ x ∈ c.children, ElementKey x.tag := fun c hc => hn c (List.mem_filter.1 hc).1
  rcases h : e.named key with _ | ⟨c, _ | ⟨c', cs⟩⟩
  · simp [grouped]
  · rw [h] at hmem
    have := clean_optional (hmem c (by simp)) v
    simp only [List.map_cons, List.map_nil, grouped, Option.map_some, Option.some.injEq, this]
    simp
  · simp only [List.map_cons, grouped, Option.map_some, Option.some.injEq]
    constructor
    · rintro (h | ⟨-, h, -⟩)
      · simp [cleanNil, isNil] at h
        cases v <;> simp [textVal] at h
      · cases h
    · rintro (⟨_, h, -⟩ | ⟨-, h, -⟩) <;> cases h

/-! ## records -/

theorem record_nodup {e : Xml} {names : List PyStr} (h : ∀ c ∈ e.children, c.tag ∈ names) (h1 : ∀ k ∈ names, (e.named k).length ≤ 1) :
    (e.children.map Xml.tag).Nodup := by
  rw [List.nodup_iff_count_le_one]
  intro k
  by_cases hk : k ∈ names
  · have : List.count k (e.children.map Xml.tag) = (e.named k).length := by
      rw [List.count_eq_countP, List.countP_map, List.countP_eq_length_filter, Xml.named]
      congr 2
      funext x
      exact Bool.eq_iff_iff.2 (by simp)
    rw [this]
    exact h1 k hk
  · rw [List.count_eq_zero.2]
    · omega
    · intro hm
      obtain ⟨c, hc, rfl⟩ := List.mem_map.1 hm
      exact hk (h c hc)

theorem named_single {e : Xml} (h : (e.children.map Xml.tag).Nodup) {c : Xml} (hc : c ∈ e.children) : e.named c.tag = [c] := by
  unfold Xml.named
  generalize e.children = l at h hc
  induction l with
  | nil => simp at hc
  | cons x l ih =>
    rw [List.map_cons, List.nodup_cons] at h
    rw [List.filter_cons]
    rcases List.mem_cons.1 hc with rfl | hc
    · rw [if_pos (by simp)]
      congr 1
      rw [List.filter_eq_nil_iff]
      intro y hy hy'
      refine h.1 (List.mem_map.2 ⟨y, hy, ?_⟩)
      simpa using hy'
    · rw [if_neg, ih h.2 hc]
      intro hx
      refine h.1 (List.mem_map.2 ⟨c, hc, ?_⟩)
      simpa [eq_comm] using hx

theorem fieldOf_iff {e : Xml} (h : (e.children.map Xml.tag).Nodup) (name : PyStr) (v : Option PyStr) :
    FieldOf e name v ↔ ∃ c, e.named name = [c] ∧ OptionalText c v := by
  constructor
  · rintro ⟨c, hc, rfl, ho⟩; exact ⟨c, named_single h hc, ho⟩
  · rintro ⟨c, hc, ho⟩
    have : c ∈ e.named name := by rw [hc]; simp
    obtain ⟨h1, h2⟩ := List.mem_filter.1 this
    exact ⟨c, h1, by simpa using h2, ho⟩

theorem optionalFieldOf_iff {e : Xml} (h : (e.children.map Xml.tag).Nodup) (name : PyStr) (v : Option PyStr) :
    OptionalFieldOf e name v ↔ (∃ c, e.named name = [c] ∧ OptionalText c v) ∨ (e.named name = [] ∧ v = none) := by
  unfold OptionalFieldOf
  rw [fieldOf_iff h]
  refine or_congr Iff.rfl (and_congr ?_ Iff.rfl)
  rw [Xml.named, List.filter_eq_nil_iff]
  simp

theorem keys_allowed {e : Xml} {d : List (PyStr × XVal)}
    (hk : ∀ k, k ∈ d.map Prod.fst ↔ (∃ p ∈ e.attrib, k = '@' :: p.1) ∨ (∃ x ∈ e.children, x.tag = k) ∨ (k = py!"#text" ∧ trimText e.text ≠ none))
    (names : List PyStr) (hn : ∀ k ∈ names, ElementKey k) (f : XVal → XVal) :
    ((d.map fun p => (p.1, f p.2)).any fun p => !names.contains p.1) = false ↔
      e.attrib = [] ∧ trimText e.text = none ∧ ∀ c ∈ e.children, c.tag ∈ names := by
  rw [List.any_eq_false]
  have : (∀ x ∈ d.map fun p => (p.1, f p.2), ¬ (!names.contains x.1) = true) ↔ ∀ k ∈ d.map Prod.fst, k ∈ names := by
    simp only [List.mem_map, forall_exists_index, and_imp, Bool.not_eq_true', List.contains_eq_mem, decide_eq_false_iff_not, not_not]
    constructor
    · rintro h k q hq rfl; exact h (q.1, f q.2) q hq rfl
    · rintro h x q hq rfl; exact h _ q hq rfl
  rw [this]
  constructor
  · intro h
    refine ⟨?_, ?_, ?_⟩
    · rcases ha : e.attrib with _ | ⟨p, a⟩
      · rfl
      · have := h ('@' :: p.1) ((hk _).2 (.inl ⟨p, by rw [ha]; simp, rfl⟩))
        exact absurd rfl ((hn _ this).1 p.1)
    · by_contra ht
      have := h py!"#text" ((hk _).2 (.inr (.inr ⟨rfl, ht⟩)))
      exact absurd rfl ((hn _ this).2 py!"text")
    · intro c hc
      exact h _ ((hk _).2 (.inr (.inl ⟨c, hc, rfl⟩)))
  · rintro ⟨h1, h2, h3⟩ k hkm
    rcases (hk k).1 hkm with ⟨p, hp, -⟩ | ⟨c, hc, rfl⟩ | ⟨-, ht⟩
    · rw [h1] at hp; simp at hp
    · exact h3 c hc
    · exact absurd h2 ht

/-! ## layers -/

theorem elementKey_lit {c : Char} {t : PyStr} (h : (c != '@' && c != '#') = true) : ElementKey (c :: t) := by
  simp only [Bool.and_eq_true, bne_iff_ne, ne_eq] at h
  exact ⟨fun u hu => h.1 (List.cons.inj hu).1, fun u hu => h.2 (List.cons.inj hu).1⟩

theorem bind_ok_iff {α β : Type} {x : PyRes α} {f : α → PyRes β} {b : β} : x.bind f = .ok b ↔ ∃ a, x = .ok a ∧ f a = .ok b := by
  cases x with
  | error e => simp [Except.bind]
  | ok a => simp [Except.bind]

theorem layer_iff {e : Xml} {d : List (PyStr × XVal)} (h : DictOf e d) (hn : ∀ c ∈ e.children, ∀ x ∈ c.children, ElementKey x.tag)
    (l : AhbLocationLayer) : layerFromDict (d.map fun p => (p.1, cleanNil p.2)) = .ok l ↔ LayerElement e l := by
  have k1 : ElementKey py!"segment_group_key" := elementKey_lit rfl
  have k2 : ElementKey py!"opening_segment_code" := elementKey_lit rfl
  have k3 : ElementKey py!"opening_qualifier" := elementKey_lit rfl
  have hkeys := keys_allowed h.keys [py!"segment_group_key", py!"opening_segment_code", py!"opening_qualifier"]
    (by simp only [List.mem_cons, List.not_mem_nil, or_false]; rintro k (rfl | rfl | rfl) <;> assumption) cleanNil
  rw [layerFromDict_plain]
  unfold layerPlain LayerElement
  split
  · rename_i ha
    constructor
    · intro h'; cases h'
    · rintro ⟨⟨h1, h2, -, h3⟩, -⟩
      rw [hkeys.2 ⟨h1, h2, h3⟩] at ha
      cases ha
  · rename_i ha
    rw [Bool.not_eq_true] at ha
    obtain ⟨h1, h2, h3⟩ := hkeys.1 ha
    simp only [bind_ok_iff, strArg_field (h.get _ k1) hn, strArg_field (h.get _ k2) hn, strArg_field (h.get _ k3) hn]
    simp only [Bool.true_eq_false, false_and, or_false]
    constructor
    · rintro ⟨a, ha', b, hb, c, hc, hl⟩
      have hnd : (e.children.map Xml.tag).Nodup := by
        refine record_nodup h3 ?_
        simp only [List.mem_cons, List.not_mem_nil, or_false]
        rintro k (rfl | rfl | rfl)
        · obtain ⟨x, hx, -⟩ := ha'; rw [hx]; simp
        · obtain ⟨x, hx, -⟩ := hb; rw [hx]; simp
        · obtain ⟨x, hx, -⟩ := hc; rw [hx]; simp
      exact ⟨⟨h1, h2, hnd, h3⟩, a, b, c, (fieldOf_iff hnd _ _).2 ha', (fieldOf_iff hnd _ _).2 hb, (fieldOf_iff hnd _ _).2 hc, hl⟩
    · rintro ⟨⟨-, -, hnd, -⟩, a, b, c, ha', hb, hc, hl⟩
      exact ⟨a, (fieldOf_iff hnd _ _).1 ha', b, (fieldOf_iff hnd _ _).1 hb, c, (fieldOf_iff hnd _ _).1 hc, hl⟩

theorem replaceNil_dict (d : List (PyStr × XVal)) : replaceNil (.dict d) = .ok (d.map fun p => (p.1, cleanNil p.2)) := rfl

theorem layerElement_children {e : Xml} {l : AhbLocationLayer} (h : LayerElement e l) : e.children ≠ [] := by
  obtain ⟨-, k, c, q, ⟨x, hx, -⟩, -⟩ := h
  intro h
  rw [h] at hx
  simp at hx

theorem layersFromValues_iff (es : List Xml) (hn : ∀ e ∈ es, ∀ c ∈ e.children, ∀ x ∈ c.children, ElementKey x.tag) :
    ∀ ls, layersFromValues (es.map Xml.toValue) = .ok ls ↔ List.Forall₂ LayerElement es ls := by
  induction es with
  | nil =>
    intro ls
    rw [List.map_nil, layersFromValues, List.forall₂_nil_left_iff]
    simp [eq_comm]
  | cons e es ih =>
    intro ls
    have ih' := ih fun e he => hn e (by simp [he])
    rw [List.map_cons, layersFromValues]
    show ((replaceNil e.toValue).bind fun d => (layerFromDict d).bind fun l => (layersFromValues (es.map Xml.toValue)).bind fun ls => .ok (l :: ls)) = .ok ls ↔ _
    rw [List.forall₂_cons_left_iff]
    rcases toValue_cases e with ⟨h1, h2, h3⟩ | ⟨-, d, hd, h⟩
    · rw [h3]
      constructor
      · intro h'; cases ht : trimText e.text <;> rw [ht] at h' <;> cases h'
      · rintro ⟨l, ls', hl, -, -⟩
        exact absurd h2 (layerElement_children hl)
    · rw [hd, replaceNil_dict]
      simp only [bind_ok_iff, Except.ok.injEq, exists_eq_left', ih', layer_iff h (hn e (by simp))]
      constructor
      · rintro ⟨l, hl, ls', hls, rfl⟩; exact ⟨l, ls', hl, hls, rfl⟩
      · rintro ⟨l, ls', hl, hls, rfl⟩; exact ⟨l, hl, ls', hls, rfl⟩

/-! ## locations -/

theorem dictGet_filter (k k' : PyStr) (d : List (PyStr × XVal)) (h : k ≠ k') : dictGet k (d.filter fun p => p.1 ≠ k') = dictGet k d := by
  induction d with
  | nil => rfl
  | cons p d ih =>
    rw [List.filter_cons]
    split
    · rw [dictGet, dictGet, ih]
    · rename_i hp
      have hp : p.1 = k' := by simpa using hp
      rw [dictGet, if_neg (by rw [hp]; exact Ne.symm h), ih]

/-- the layers in the value of `layers` -/
def layersOfValue : XVal → PyRes (List AhbLocationLayer)
  | .list l => layersFromValues l
  | .dict d => layersFromValues (d.map fun p => .str p.1)
  | .str s => layersFromValues (s.map fun c => .str [c])
  | .none => .error .typeError

/-- the entries besides the layers -/
def leftoversOf (d : List (PyStr × XVal)) : List (PyStr × XVal) :=
  (d.filter fun p => p.1 ≠ py!"layers").map fun p => (p.1, cleanNil p.2)

theorem xmlDictToLocation_dict (d : List (PyStr × XVal)) : xmlDictToLocation (.dict d) =
    ((XVal.dict d).subscript py!"layers").bind fun lv => (lv.subscript py!"ahbLocationLayer").bind fun ld =>
      (layersOfValue ld).bind fun layers =>
      if ((leftoversOf d).any fun p => ![py!"segment_code", py!"data_element_id", py!"qualifier"].contains p.1) = true then .error .typeError
      else (matchArg (leftoversOf d) py!"segment_code" false segmentCode3Re).bind fun code =>
        (matchArg (leftoversOf d) py!"data_element_id" false dataElement4Re).bind fun de =>
        (strArg (leftoversOf d) py!"qualifier" false).bind fun q => AhbLocation.new layers code de q := by
  unfold xmlDictToLocation
  simp only [replaceNil_dict]
  cases h1 : (XVal.dict d).subscript py!"layers" with
  | error e => rfl
  | ok lv =>
    cases h2 : lv.subscript py!"ahbLocationLayer" with
    | error e => simp only [Bind.bind, Except.bind, h2]
    | ok ld =>
      simp only [Bind.bind, Except.bind, h2]
      cases ld with
      | none => rfl
      | _ =>
        simp only [layersOfValue, leftoversOf]
        split
        · rfl
        · split
          · rename_i h; exact (if_pos h).symm
          · rename_i h; exact (if_neg h).symm

theorem locationArgs_ok {d : List (PyStr × XVal)} {layers : List AhbLocationLayer} {l : AhbLocation} :
    ((matchArg d py!"segment_code" false segmentCode3Re).bind fun code =>
      (matchArg d py!"data_element_id" false dataElement4Re).bind fun de =>
      (strArg d py!"qualifier" false).bind fun q => AhbLocation.new layers code de q) = .ok l ↔
    ((strArg d py!"segment_code" false).bind fun code => (strArg d py!"data_element_id" false).bind fun de =>
      (strArg d py!"qualifier" false).bind fun q => AhbLocation.new layers code de q) = .ok l := by
  refine (matchArg_bind_ok fun v hv => ?_).trans ?_
  · obtain ⟨c, -, h⟩ := except_bind_ok hv
    obtain ⟨q, -, h⟩ := except_bind_ok h
    exact (locationNew_matches h).1
  · cases strArg d py!"segment_code" false with
    | error e => exact Iff.rfl
    | ok code =>
      refine matchArg_bind_ok fun v hv => ?_
      obtain ⟨q, -, h⟩ := except_bind_ok hv
      exact (locationNew_matches h).2

theorem xmlDictToLocation_other {v : XVal} (h : ∀ d, v ≠ .dict d) : xmlDictToLocation v = .error .typeError := by
  cases v with
  | dict d => exact absurd rfl (h d)
  | _ => rfl

theorem strs_layers {ss : List PyStr} {ls : List AhbLocationLayer} (h : layersFromValues (ss.map XVal.str) = .ok ls) : ls = [] := by
  cases ss with
  | nil => cases h; rfl
  | cons s ss => cases h

theorem location_new_layers {layers : List AhbLocationLayer} {code de q : Option PyStr} {l : AhbLocation}
    (h : AhbLocation.new layers code de q = .ok l) : layers = l.layers ∧ layers ≠ [] := by
  unfold AhbLocation.new at h
  split at h
  · cases h
  split at h
  · cases h
  split at h
  · cases h
  · rename_i h1 _ _
    cases h
    exact ⟨rfl, by rintro rfl; simp at h1⟩

/-- all the elements that matter have names of elements -/
def DeepKeys : Nat → Xml → Prop
  | 0, _ => True
  | n + 1, e => ∀ c ∈ e.children, ElementKey c.tag ∧ DeepKeys n c

theorem dictOf_leftovers {e : Xml} {d : List (PyStr × XVal)} (h : DictOf e d) :
    (((leftoversOf d).any fun p => ![py!"segment_code", py!"data_element_id", py!"qualifier"].contains p.1) = false ↔
      e.attrib = [] ∧ trimText e.text = none ∧ ∀ c ∈ e.children, c.tag ∈ [py!"layers", py!"segment_code", py!"data_element_id", py!"qualifier"]) := by
  have k0 : ElementKey py!"layers" := elementKey_lit rfl
  have k1 : ElementKey py!"segment_code" := elementKey_lit rfl
  have k2 : ElementKey py!"data_element_id" := elementKey_lit rfl
  have k3 : ElementKey py!"qualifier" := elementKey_lit rfl
  rw [← keys_allowed h.keys [py!"layers", py!"segment_code", py!"data_element_id", py!"qualifier"]
    (by simp only [List.mem_cons, List.not_mem_nil, or_false]; rintro k (rfl | rfl | rfl | rfl) <;> assumption) cleanNil]
  rw [List.any_eq_false, List.any_eq_false]
  unfold leftoversOf
  simp only [List.mem_map, List.mem_filter, forall_exists_index, and_imp, Bool.not_eq_true', List.contains_eq_mem, decide_eq_false_iff_not, not_not]
  constructor
  · rintro h x q hq rfl
    by_cases hx : q.1 = py!"layers"
    · rw [show (q.1, cleanNil q.2).1 = py!"layers" from hx]; simp
    · exact List.mem_cons_of_mem _ (h _ q hq (by simpa using hx) rfl)
  · rintro h x q hq hx rfl
    rcases List.mem_cons.1 (h _ q hq rfl) with h' | h'
    · exact absurd h' (by simpa using hx)
    · exact h'

theorem locationFields_iff (e : Xml) (hk : DeepKeys 4 e) (l : AhbLocation) : xmlDictToLocation e.toValue = .ok l ↔ LocationFields e l := by
  have hn : ∀ c ∈ e.children, ∀ x ∈ c.children, ElementKey x.tag := fun c hc x hx => ((hk c hc).2 x hx).1
  rcases toValue_cases e with ⟨h1, h2, h3⟩ | ⟨-, d, hd, h⟩
  · rw [h3, xmlDictToLocation_other (by intro d; cases trimText e.text <;> simp [textVal])]
    constructor
    · intro h'; cases h'
    · rintro ⟨-, ⟨c, hc, -⟩, -⟩
      rw [h2] at hc
      simp at hc
  · rw [hd, xmlDictToLocation_dict]
    have k0 : ElementKey py!"layers" := elementKey_lit rfl
    have k1 : ElementKey py!"segment_code" := elementKey_lit rfl
    have k2 : ElementKey py!"data_element_id" := elementKey_lit rfl
    have k3 : ElementKey py!"qualifier" := elementKey_lit rfl
    have kl : ElementKey py!"ahbLocationLayer" := elementKey_lit rfl
    have hg : ∀ k, ElementKey k → k ≠ py!"layers" → dictGet k (d.filter fun p => p.1 ≠ py!"layers") = grouped ((e.named k).map Xml.toValue) := by
      intro k hk hne
      rw [dictGet_filter _ _ _ hne, h.get k hk]
      rfl
    have arg : ∀ key v, ElementKey key → key ≠ py!"layers" → (strArg (leftoversOf d) key false = .ok v ↔
        (∃ c, e.named key = [c] ∧ OptionalText c v) ∨ (e.named key = [] ∧ v = none)) := by
      intro key v hkey hne
      rw [leftoversOf, strArg_field (hg key hkey hne) hn]
      simp
    simp only [bind_ok_iff]
    constructor
    · rintro ⟨lv, hlv, ld, hld, layers, hlayers, hrest⟩
      split at hrest
      · cases hrest
      rename_i hany
      rw [Bool.not_eq_true] at hany
      obtain ⟨r1, r2, r3⟩ := (dictOf_leftovers h).1 hany
      rw [locationArgs_ok] at hrest
      simp only [bind_ok_iff] at hrest
      obtain ⟨code, hcode, de, hde, q, hq, hnew⟩ := hrest
      rw [arg _ _ k1 (by decide)] at hcode
      rw [arg _ _ k2 (by decide)] at hde
      rw [arg _ _ k3 (by decide)] at hq
      obtain ⟨rfl, hne⟩ := location_new_layers hnew
      have hlv' : grouped ((e.named py!"layers").map Xml.toValue) = some lv := by
        have := h.get _ k0
        rw [XVal.subscript] at hlv
        unfold Xml.named
        rw [← this]
        cases hg' : dictGet py!"layers" d with
        | none => rw [hg'] at hlv; cases hlv
        | some x => rw [hg'] at hlv; cases hlv; rfl
      obtain ⟨c, hc, hcv⟩ : ∃ c, e.named py!"layers" = [c] ∧ c.toValue = lv := by
        rcases hx : e.named py!"layers" with _ | ⟨c, _ | ⟨c', cs⟩⟩
        · rw [hx] at hlv'; cases hlv'
        · rw [hx] at hlv'; cases hlv'; exact ⟨c, rfl, rfl⟩
        · rw [hx] at hlv'; cases hlv'; cases hld
      have hcm : c ∈ e.named py!"layers" := by rw [hc]; simp
      obtain ⟨hce, hct⟩ := List.mem_filter.1 hcm
      have hct : c.tag = py!"layers" := by simpa using hct
      have hnd : (e.children.map Xml.tag).Nodup := by
        refine record_nodup r3 ?_
        simp only [List.mem_cons, List.not_mem_nil, or_false]
        rintro k (rfl | rfl | rfl | rfl)
        · rw [hc]; simp
        · rcases hcode with ⟨x, hx, -⟩ | ⟨hx, -⟩ <;> rw [hx] <;> simp
        · rcases hde with ⟨x, hx, -⟩ | ⟨hx, -⟩ <;> rw [hx] <;> simp
        · rcases hq with ⟨x, hx, -⟩ | ⟨hx, -⟩ <;> rw [hx] <;> simp
      refine ⟨⟨r1, r2, hnd, r3⟩, ⟨c, hce, hct, ?_⟩, code, de, q, (optionalFieldOf_iff hnd _ _).2 hcode,
        (optionalFieldOf_iff hnd _ _).2 hde, (optionalFieldOf_iff hnd _ _).2 hq, hnew⟩
      subst hcv
      rcases toValue_cases c with ⟨-, -, h3⟩ | ⟨-, d', hd', h'⟩
      · rw [h3] at hld
        cases ht : trimText c.text <;> rw [ht] at hld <;> cases hld
      · rw [hd'] at hld
        have hld' : grouped ((c.named py!"ahbLocationLayer").map Xml.toValue) = some ld := by
          have := h'.get _ kl
          rw [XVal.subscript] at hld
          unfold Xml.named
          rw [← this]
          cases hg' : dictGet py!"ahbLocationLayer" d' with
          | none => rw [hg'] at hld; cases hld
          | some x => rw [hg'] at hld; cases hld; rfl
        rcases hx : c.named py!"ahbLocationLayer" with _ | ⟨x, _ | ⟨x', xs⟩⟩
        · rw [hx] at hld'; cases hld'
        · rw [hx] at hld'
          have : ld = x.toValue := by cases hld'; rfl
          subst this
          rcases toValue_cases x with ⟨-, -, h3⟩ | ⟨-, d'', hd'', -⟩
          · rw [h3] at hlayers
            cases ht : trimText x.text with
            | none => rw [ht] at hlayers; cases hlayers
            | some s =>
              rw [ht] at hlayers
              refine absurd (strs_layers (ss := s.map fun c => [c]) ?_) hne
              rw [List.map_map]
              exact hlayers
          · rw [hd''] at hlayers
            refine absurd (strs_layers (ss := d''.map Prod.fst) ?_) hne
            rw [List.map_map]
            exact hlayers
        · have hv : ld = .list ((x :: x' :: xs).map Xml.toValue) := by rw [hx] at hld'; cases hld'; rfl
          subst hv
          have := (layersFromValues_iff (x :: x' :: xs) ?_ _).1 hlayers
          · have hlen := this.length_eq
            refine ⟨by rw [← hlen]; simp, ?_⟩
            rw [show (c.children.filter fun x => x.tag = py!"ahbLocationLayer") = x :: x' :: xs from hx]
            exact this
          · intro y hy z hz w hw
            have hyc : y ∈ c.children := by
              have : y ∈ c.named py!"ahbLocationLayer" := by rw [hx]; exact hy
              exact (List.mem_filter.1 this).1
            exact ((((hk c hce).2 y hyc).2 z hz).2 w hw).1
    · rintro ⟨⟨r1, r2, hnd, r3⟩, ⟨c, hce, hct, hlen, hall⟩, code, de, q, hcode, hde, hq, hnew⟩
      have hc : e.named py!"layers" = [c] := by rw [← hct]; exact named_single hnd hce
      have hcc : c.children ≠ [] := by
        intro h0
        have := hall.length_eq
        rw [h0] at this
        simp at this
        omega
      rcases toValue_cases c with ⟨-, h2, -⟩ | ⟨-, d', hd', h'⟩
      · exact absurd h2 hcc
      have hlen' := hall.length_eq
      rcases hx : c.named py!"ahbLocationLayer" with _ | ⟨x, _ | ⟨x', xs⟩⟩
      · rw [show (c.children.filter fun x => x.tag = py!"ahbLocationLayer") = [] from hx] at hlen'
        simp at hlen'; omega
      · rw [show (c.children.filter fun x => x.tag = py!"ahbLocationLayer") = [x] from hx] at hlen'
        simp at hlen'; omega
      refine ⟨c.toValue, ?_, .list ((x :: x' :: xs).map Xml.toValue), ?_, l.layers, ?_, ?_⟩
      · rw [XVal.subscript, h.get _ k0]
        rw [show (e.children.filter fun x => x.tag = py!"layers") = [c] from hc]
        rfl
      · rw [hd', XVal.subscript, h'.get _ kl]
        rw [show (c.children.filter fun x => x.tag = py!"ahbLocationLayer") = x :: x' :: xs from hx]
        rfl
      · refine (layersFromValues_iff (x :: x' :: xs) ?_ _).2 ?_
        · intro y hy z hz w hw
          have hyc : y ∈ c.children := by
            have : y ∈ c.named py!"ahbLocationLayer" := by rw [hx]; exact hy
            exact (List.mem_filter.1 this).1
          exact ((((hk c hce).2 y hyc).2 z hz).2 w hw).1
        · rw [show (c.children.filter fun x => x.tag = py!"ahbLocationLayer") = x :: x' :: xs from hx] at hall
          exact hall
      · rw [if_neg (by rw [(dictOf_leftovers h).2 ⟨r1, r2, r3⟩]; simp), locationArgs_ok]
        simp only [bind_ok_iff]
        exact ⟨code, (arg _ _ k1 (by decide)).2 ((optionalFieldOf_iff hnd _ _).1 hcode), de,
          (arg _ _ k2 (by decide)).2 ((optionalFieldOf_iff hnd _ _).1 hde), q,
          (arg _ _ k3 (by decide)).2 ((optionalFieldOf_iff hnd _ _).1 hq), hnew⟩

theorem locationElement_iff (e : Xml) (hk : DeepKeys 4 e) (l : AhbLocation) : fromXmlElement e = .ok l ↔ LocationElement e l := by
  unfold fromXmlElement LocationElement xmlParse
  rw [← locationFields_iff e hk]
  by_cases h : e.tag = py!"ahbLocation"
  · simp only [XVal.subscript, dictGet, h, if_true, true_and]
    rfl
  · simp only [XVal.subscript, dictGet, h, if_false, false_and, iff_false]
    intro h'; cases h'

theorem locationsFromValues_iff (es : List Xml) (hk : ∀ e ∈ es, DeepKeys 4 e) :
    ∀ ls, locationsFromValues (es.map Xml.toValue) = .ok ls ↔ List.Forall₂ LocationFields es ls := by
  induction es with
  | nil =>
    intro ls
    rw [List.map_nil, locationsFromValues, List.forall₂_nil_left_iff]
    simp [eq_comm]
  | cons e es ih =>
    intro ls
    have ih' := ih fun e he => hk e (by simp [he])
    rw [List.map_cons, locationsFromValues]
    show ((xmlDictToLocation e.toValue).bind fun l => (locationsFromValues (es.map Xml.toValue)).bind fun ls => .ok (l :: ls)) = .ok ls ↔ _
    rw [List.forall₂_cons_left_iff]
    simp only [bind_ok_iff, Except.ok.injEq, ih', locationFields_iff e (hk e (by simp))]
    constructor
    · rintro ⟨l, hl, ls', hls, rfl⟩; exact ⟨l, ls', hl, hls, rfl⟩
    · rintro ⟨l, ls', hl, hls, rfl⟩; exact ⟨l, hl, ls', hls, rfl⟩

theorem locationsElement_iff (e : Xml) (hk : DeepKeys 5 e) (ls : List AhbLocation) : fromXmlElements e = .ok ls ↔ LocationsElement e ls := by
  have kl : ElementKey py!"ahbLocation" := elementKey_lit rfl
  have hall : List.Forall₂ LocationElement (e.named py!"ahbLocation") ls ↔ List.Forall₂ LocationFields (e.named py!"ahbLocation") ls := by
    rw [List.forall₂_iff_zip, List.forall₂_iff_zip]
    refine and_congr Iff.rfl ?_
    constructor
    · intro h a b hab; exact (h hab).2
    · intro h a b hab
      refine ⟨?_, h hab⟩
      have := (List.mem_filter.1 (List.of_mem_zip hab).1).2
      simpa using this
  unfold LocationsElement
  rw [show (e.children.filter fun x => x.tag = py!"ahbLocation") = e.named py!"ahbLocation" from rfl, hall]
  have hkc : ∀ c ∈ e.named py!"ahbLocation", DeepKeys 4 c := fun c hc => (hk c (List.mem_filter.1 hc).1).2
  unfold fromXmlElements xmlParse
  by_cases h : e.tag = py!"ahbLocations"
  · have : (XVal.dict [(e.tag, e.toValue)]).subscript py!"ahbLocations" = .ok e.toValue := by simp [XVal.subscript, dictGet, h]
    rw [this]
    show ((e.toValue.subscript py!"ahbLocation").bind _) = _ ↔ _
    rw [bind_ok_iff]
    simp only [h, true_and]
    rcases toValue_cases e with ⟨-, h2, h3⟩ | ⟨-, d, hd, hdo⟩
    · have he : e.named py!"ahbLocation" = [] := by rw [Xml.named, h2]; rfl
      rw [h3, he, List.forall₂_nil_left_iff]
      constructor
      · rintro ⟨a, ha, -⟩; cases ht : trimText e.text <;> rw [ht] at ha <;> cases ha
      · rintro ⟨h1, h2⟩; exact absurd h2 h1
    · rw [hd]
      have hsub : ∀ a, (XVal.dict d).subscript py!"ahbLocation" = .ok a ↔ grouped ((e.named py!"ahbLocation").map Xml.toValue) = some a := by
        intro a
        rw [XVal.subscript, hdo.get _ kl, Xml.named]
        cases grouped ((e.children.filter fun x => x.tag = py!"ahbLocation").map Xml.toValue) <;> simp
      simp only [hsub]
      rcases hx : e.named py!"ahbLocation" with _ | ⟨x, _ | ⟨x', xs⟩⟩
      · simp [grouped]
      · rw [hx] at hkc
        simp only [List.map_cons, List.map_nil, grouped, Option.some.injEq, exists_eq_left']
        have hxi := locationFields_iff x (hkc x (by simp))
        have hnl := toValue_notList x
        cases hv : x.toValue with
        | list l => exact absurd hv (hnl l)
        | dict d' =>
          show ((xmlDictToLocation (.dict d')).bind fun l => .ok [l]) = .ok ls ↔ _
          rw [← hv, bind_ok_iff]
          simp only [hxi, Except.ok.injEq]
          constructor
          · rintro ⟨l, hl, rfl⟩; exact ⟨by simp, .cons hl .nil⟩
          · rintro ⟨-, h'⟩
            cases h' with
            | cons h1 h2 => cases h2; exact ⟨_, h1, rfl⟩
        | none =>
          constructor
          · intro h'; cases h'
          · rintro ⟨-, h'⟩
            cases h' with
            | cons h1 h2 =>
              have := (hxi _).2 h1
              rw [hv] at this
              cases this
        | str s =>
          constructor
          · intro h'; cases h'
          · rintro ⟨-, h'⟩
            cases h' with
            | cons h1 h2 =>
              have := (hxi _).2 h1
              rw [hv] at this
              cases this
      · rw [hx] at hkc
        rw [← locationsFromValues_iff _ hkc]
        simp only [List.map_cons, grouped, Option.some.injEq, exists_eq_left']
        constructor
        · intro h'
          refine ⟨?_, h'⟩
          rintro rfl
          have := (locationsFromValues_iff (x :: x' :: xs) hkc []).1 h'
          cases this
        · exact fun h' => h'.2
  · have : (XVal.dict [(e.tag, e.toValue)]).subscript py!"ahbLocations" = .error .keyError := by simp [XVal.subscript, dictGet, h]
    rw [this]
    simp only [h, false_and, iff_false]
    intro h'; cases h'

end Verif
