import Verif.Proofs.White
import Verif.Model.MigXml
import Verif.Spec.Flat
import Mathlib.Data.List.Forall2
/-!
# Specification of the MIG reader
-/

namespace Verif

/-! ## nested qualifiers -/

/-- a non-empty text of digits -/
def IsDigits (s : PyStr) : Prop := s ≠ [] ∧ ∀ c ∈ s, isDigit c = true

/-- a qualifier: capital letters and digits -/
def IsQualifier (s : PyStr) : Prop := s ≠ [] ∧ ∀ c ∈ s, c ∈ capitals ∨ isDigit c = true

/-- a reference to a segment: `SEG:n:m` or `SEG:n:(m,k)` -/
def IsReference (s : PyStr) : Prop :=
  ∃ seg n m, s = seg ++ py!":" ++ n ++ py!":" ++ m ∧ IsUpperWord seg ∧ IsDigits n ∧
    (IsDigits m ∨ ∃ a b, m = py!"(" ++ a ++ py!"," ++ b ++ py!")" ∧ IsDigits a ∧ IsDigits b)

/-- at least two words separated by colons, possibly with a colon at the end -/
def IsWordPath (s : PyStr) : Prop :=
  ∃ (words : List PyStr) (last : PyStr), words ≠ [] ∧ (∀ w ∈ last :: words, w ≠ [] ∧ ∀ c ∈ w, isWord c = true) ∧
    (s = (words.flatMap fun w => w ++ py!":") ++ last ∨ s = (words.flatMap fun w => w ++ py!":") ++ last ++ py!":")

/-- `n:m` or `SEG:n:m` -/
def IsElementPath (s : PyStr) : Prop :=
  ∃ seg n m, s = seg ++ n ++ py!":" ++ m ∧ (seg = [] ∨ ∃ code, seg = code ++ py!":" ∧ IsUpperWord code) ∧ IsDigits n ∧ IsDigits m

/-- `path=q` -/
def IsItem (s : PyStr) : Prop := ∃ path q, s = path ++ py!"=" ++ q ∧ IsElementPath path ∧ IsQualifier q

/-- a reference with a single qualifier -/
def SingleForm (body q : PyStr) : Prop :=
  UpToNewline (fun b => ∃ ref path, b = ref ++ py!"[" ++ path ++ py!"=" ++ q ++ py!"]" ∧ IsReference ref ∧ IsWordPath path) body ∧
    IsQualifier q

/-- a reference with a sequence of items, each of which may be followed by a pipe -/
def MultiForm (body inner : PyStr) : Prop :=
  UpToNewline (fun b => ∃ ref, b = ref ++ py!"[" ++ inner ++ py!"]" ∧ IsReference ref) body ∧
    ∃ parts : List PyStr, parts ≠ [] ∧ inner = parts.flatten ∧ ∀ p ∈ parts, IsItem p ∨ ∃ i, p = i ++ py!"|" ∧ IsItem i

/-- the text between the first and the second equals sign -/
def FirstValue (piece q : PyStr) : Prop :=
  ∃ before after, piece = before ++ py!"=" ++ q ++ after ∧ '=' ∉ before ∧ '=' ∉ q ∧ (after = [] ∨ ∃ r, after = '=' :: r)

/-- what is read from the attribute: the qualifier of a single reference; otherwise the value of each of the pieces between
the pipes -/
def ReadsAs (body : PyStr) (qs : List PyStr) : Prop :=
  (∃ q, SingleForm body q ∧ qs = [q]) ∨
  (¬ ∃ q, SingleForm body q) ∧ ∃ pieces, MultiForm body (pyJoin py!"|" pieces) ∧ pieces ≠ [] ∧ (∀ p ∈ pieces, '|' ∉ p) ∧
    List.Forall₂ FirstValue pieces qs

/-- a reference with the qualifiers `qs`, as they occur in the MIGs: `SEG:n:m[path=q1|path=q2|...]` -/
def WellFormedQualifiers (body : PyStr) (qs : List PyStr) : Prop :=
  ∃ (ref : PyStr) (items : List PyStr), qs ≠ [] ∧ body = ref ++ py!"[" ++ pyJoin py!"|" items ++ py!"]" ∧ IsReference ref ∧
    List.Forall₂ (fun item q => ∃ path, item = path ++ py!"=" ++ q ∧ IsElementPath path ∧ IsQualifier q) items qs

/-! ## elements -/

/-- a `class` element with the given `ref` -/
def IsClass (ref : PyStr) (e : Xml) : Prop := e.tag = py!"class" ∧ dictGet py!"ref" e.attrib = some ref

/-- a `field` element with the given `meta.id` -/
def IsField (id : PyStr) (e : Xml) : Prop := e.tag = py!"field" ∧ dictGet py!"meta.id" e.attrib = some id

/-- the elements on the way to the element at the given position, without the root -/
def lineage : Xml → List Nat → Option (List Xml)
  | _, [] => some []
  | e, i :: path => match e.children[i]? with
    | none => none
    | some c => (lineage c path).map (c :: ·)

/-- the `ref` of the class of a layer -/
def AhbLocationLayer.ref (layer : AhbLocationLayer) : PyStr := (nonEmpty? layer.segmentGroupKey).getD py!"UNH"
where
  /-- `None` for an empty text -/
  nonEmpty? : Option PyStr → Option PyStr
    | some (c :: s) => some (c :: s)
    | _ => none

/-- the attribute (`key` or `ref`) of the element mentions the qualifier -/
def Mentions (attribKey : PyStr) (q : Option PyStr) (e : Xml) : Prop :=
  ∃ q' body qs, q = some q' ∧ dictGet attribKey e.attrib = some body ∧ ReadsAs body qs ∧ q' ∈ qs

/-- the child at position `i` is the only one with the property -/
def OnlyChild (P : Xml → Prop) (parent : Xml) (i : Nat) : Prop :=
  (∃ c, parent.children[i]? = some c ∧ P c) ∧ ∀ (j : Nat) (d : Xml), parent.children[j]? = some d → P d → j = i

/-- the child at position `i` is the first one with both properties, but not the only one with the first property -/
def FirstOfMany (P Q : Xml → Prop) (parent : Xml) (i : Nat) : Prop :=
  (∃ c, parent.children[i]? = some c ∧ P c ∧ Q c) ∧
  (∀ (j : Nat) (d : Xml), j < i → parent.children[j]? = some d → P d → ¬ Q d) ∧
  ∃ (j : Nat) (d : Xml), j ≠ i ∧ parent.children[j]? = some d ∧ P d

/-- going down from an element along the layers: the only class with the right `ref`, or the first one whose `key` mentions
the opening qualifier -/
inductive LayerWalk : Xml → List AhbLocationLayer → List Nat → Xml → Prop
  | nil (e : Xml) : LayerWalk e [] [] e
  | cons {parent child e : Xml} {layer : AhbLocationLayer} {layers : List AhbLocationLayer} {i : Nat} {path : List Nat}
      (hc : parent.children[i]? = some child)
      (hi : OnlyChild (IsClass layer.ref) parent i ∨
        FirstOfMany (IsClass layer.ref) (Mentions py!"key" layer.openingQualifier) parent i)
      (rest : LayerWalk child layers path e) : LayerWalk parent (layer :: layers) (i :: path) e

/-- going down to the class of the segment: the only one with this `ref`, or the first one whose `key` mentions the opening
qualifier of the innermost layer; stay if there is none -/
def SegmentWalk (code q : Option PyStr) (parent : Xml) (path : List Nat) (e : Xml) : Prop :=
  (path = [] ∧ e = parent ∧ (code = none ∨ code = some py!"UNH" ∨ ∃ c, code = some c ∧
    ¬ (∃ i, OnlyChild (IsClass c) parent i ∨ FirstOfMany (IsClass c) (Mentions py!"key" q) parent i))) ∨
  ∃ c i, code = some c ∧ c ≠ py!"UNH" ∧ path = [i] ∧ parent.children[i]? = some e ∧
    (OnlyChild (IsClass c) parent i ∨ FirstOfMany (IsClass c) (Mentions py!"key" q) parent i)

/-- going down to the field: the only one with this id, or the only one of several whose `ref` mentions the qualifier -/
def FieldAt (id : PyStr) (q : Option PyStr) (parent : Xml) (i : Nat) : Prop :=
  OnlyChild (IsField id) parent i ∨
    (OnlyChild (fun e => IsField id e ∧ Mentions py!"ref" q e) parent i ∧
      ∃ (j : Nat) (d : Xml), j ≠ i ∧ parent.children[j]? = some d ∧ IsField id d)

/-- where a lookup ends: at the class of the innermost layer if there is no data element id (provided that there are not several
classes for the segment), otherwise at the field, which is looked for below the class of the segment if there is one -/
def Found (msg : Xml) (loc : AhbLocation) (path : List Nat) (e : Xml) : Prop :=
  ∃ layer p1 class_, loc.layers.getLast? = some layer ∧ LayerWalk msg loc.layers p1 class_ ∧
    ((loc.dataElementId = none ∧ path = p1 ∧ e = class_ ∧ ¬ ∃ c i, loc.segmentCode = some c ∧ c ≠ py!"UNH" ∧
        FirstOfMany (IsClass c) (Mentions py!"key" layer.openingQualifier) class_ i) ∨
     ∃ d p2 seg i, loc.dataElementId = some d ∧ SegmentWalk loc.segmentCode layer.openingQualifier class_ p2 seg ∧
        FieldAt d loc.qualifier seg i ∧ seg.children[i]? = some e ∧ path = p1 ++ p2 ++ [i])

/-- the attribute can not be read: the sequence of items ends with a pipe -/
def DanglingPipe (body : PyStr) : Prop := ∃ inner, MultiForm body inner ∧ py!"|" <:+ inner

/-- no `key` or `ref` attribute below the root ends with a dangling pipe -/
def GoodQualifiers (root : Xml) : Prop :=
  ∀ path es e attribKey body, lineage root path = some es → e ∈ es → (attribKey = py!"key" ∨ attribKey = py!"ref") →
    dictGet attribKey e.attrib = some body → ¬ DanglingPipe body

/-! ## stacks -/

/-- the name of an element: classes prefer `migName`, then `ahbName`, then `name`; other elements prefer `ahbName`, then
`name`, then `migName` -/
def NameOf (e : Xml) (n : PyStr) : Prop :=
  (e.tag = py!"class" ∧ (dictGet py!"migName" e.attrib = some n ∨
    (dictGet py!"migName" e.attrib = none ∧ (dictGet py!"ahbName" e.attrib = some n ∨
      (dictGet py!"ahbName" e.attrib = none ∧ dictGet py!"name" e.attrib = some n))))) ∨
  (e.tag ≠ py!"class" ∧ (dictGet py!"ahbName" e.attrib = some n ∨
    (dictGet py!"ahbName" e.attrib = none ∧ (dictGet py!"name" e.attrib = some n ∨
      (dictGet py!"name" e.attrib = none ∧ dictGet py!"migName" e.attrib = some n)))))

/-- the level of an element among the elements on the way to it: its own name or that of the nearest ancestor with a name -/
def LevelOf (above : List Xml) (e : Xml) (l : EdifactStackLevel) : Prop :=
  (l.isGroupable = true ↔ e.tag = py!"class") ∧ l.index = none ∧
  ∃ before named after, above ++ [e] = before ++ named :: after ∧ NameOf named l.name ∧ ∀ x ∈ after, ¬ ∃ n, NameOf x n

/-! ## names -/

/-- a lower case character in a comparable name: blanks, hyphens and line breaks vanish, ß becomes ss -/
def squeeze (c : Char) : PyStr := if c = ' ' ∨ c = '-' ∨ c = '\n' then [] else if c = 'ß' then py!"ss" else [c]

/-- the part of a comparable name that stems from one character (if it is no capital sigma) -/
def folded (c : Char) : PyStr := (lowerChar c).flatMap squeeze

/-- an element and its counterpart with comparable names: only the values of `name` and `ahbName` differ -/
def Renamed (e e' : Xml) : Prop :=
  e'.tag = e.tag ∧ e'.text = e.text ∧ e'.children.length = e.children.length ∧
  List.Forall₂ (fun a a' => a'.1 = a.1 ∧
    a'.2 = if a.1 = py!"name" ∨ a.1 = py!"ahbName" then makeNameComparable a.2 else a.2) e.attrib e'.attrib

/-- the element is in no namespace: a name in a namespace is `{uri}local` -/
def InNoNamespace (x : Xml) : Prop := '{' ∉ x.tag

end Verif
