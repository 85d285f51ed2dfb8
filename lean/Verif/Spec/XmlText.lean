import Verif.Py.XmlText
import Verif.Spec.LocationXml
/-!
# Which texts are XML documents

The grammar of XML 1.0 for documents without a document type declaration, after the normalisation of line ends. Each relation says
which information a text carries: comments, processing instructions, the kind of the quotes, white space inside of tags, and the way
in which a character is written carry none.
-/

namespace Verif

/-- white space -/
def XmlBlank (s : PyStr) : Prop := ∀ c ∈ s, c = ' ' ∨ c = '\t' ∨ c = '\n' ∨ c = '\r'

/-- a name: a letter, `_` or `:`, followed by such characters, digits, hyphens and dots; every character from U+0080 on is taken for a
letter -/
def XmlName (s : PyStr) : Prop :=
  ∃ c t, s = c :: t ∧ (∀ d ∈ s, d ∈ py!"ABCDEFGHIJKLMNOPQRSTUVWXYZabcdefghijklmnopqrstuvwxyz_:0123456789-." ∨ 128 ≤ d.toNat) ∧
    c ∉ py!"0123456789-."

/-- a character that may occur in a document: no control characters except for tabulator, newline and carriage return -/
def XmlChar (c : Char) : Prop := c ∈ ['\t', '\n', '\r'] ∨ (32 ≤ c.toNat ∧ c.toNat ≠ 0xFFFE ∧ c.toNat ≠ 0xFFFF)

/-- the digits of a number in base 10 or 16 -/
inductive Digits (base : Nat) : PyStr → Nat → Prop
  | one {c : Char} {v : Nat} (h : hexVal c = some v) (hv : v < base) : Digits base [c] v
  | snoc {s : PyStr} {n : Nat} {c : Char} {v : Nat} (hs : Digits base s n) (h : hexVal c = some v) (hv : v < base) :
      Digits base (s ++ [c]) (base * n + v)

/-- a text that stands for one character: one of the five names or a number -/
inductive XmlRef : PyStr → Char → Prop
  | lt : XmlRef py!"&lt;" '<'
  | gt : XmlRef py!"&gt;" '>'
  | amp : XmlRef py!"&amp;" '&'
  | quot : XmlRef py!"&quot;" '"'
  | apos : XmlRef py!"&apos;" '\''
  | dec {ds : PyStr} {c : Char} (h : Digits 10 ds c.toNat) (hc : XmlChar c) : XmlRef (py!"&#" ++ ds ++ py!";") c
  | hex {ds : PyStr} {c : Char} (h : Digits 16 ds c.toNat) (hc : XmlChar c) : XmlRef (py!"&#x" ++ ds ++ py!";") c

/-- the text between two quotes `q` and the value it stands for: tabulators and line ends become spaces unless they are written as a
reference -/
inductive XmlAttVal (q : Char) : PyStr → PyStr → Prop
  | nil : XmlAttVal q [] []
  | blank {c : Char} {t v : PyStr} (h : c = '\t' ∨ c = '\n' ∨ c = '\r') (ht : XmlAttVal q t v) : XmlAttVal q (c :: t) (' ' :: v)
  | char {c : Char} {t v : PyStr} (hc : XmlChar c) (h : c ∉ ['\t', '\n', '\r', '<', '&', q]) (ht : XmlAttVal q t v) :
      XmlAttVal q (c :: t) (c :: v)
  | ref {r : PyStr} {c : Char} {t v : PyStr} (h : XmlRef r c) (ht : XmlAttVal q t v) : XmlAttVal q (r ++ t) (c :: v)

/-- the attributes in a tag -/
inductive XmlAttrs : PyStr → List (PyStr × PyStr) → Prop
  | nil : XmlAttrs [] []
  | cons {b0 b1 b2 name t v : PyStr} {q : Char} {rest : PyStr} {as : List (PyStr × PyStr)} (h0 : XmlBlank b0) (hne : b0 ≠ [])
      (h1 : XmlBlank b1) (h2 : XmlBlank b2) (hn : XmlName name) (hq : q = '"' ∨ q = '\'') (hv : XmlAttVal q t v)
      (hr : XmlAttrs rest as) : XmlAttrs (b0 ++ name ++ b1 ++ '=' :: b2 ++ q :: t ++ q :: rest) ((name, v) :: as)

/-- `stop` occurs in `body ++ stop` at the end only -/
def OnlyAtEnd (stop body : PyStr) : Prop := ∀ a b, body ++ stop = a ++ stop ++ b → b = []

/-- a comment -/
inductive XmlComment : PyStr → Prop
  | mk {body : PyStr} (hc : ∀ c ∈ body, XmlChar c) (h : OnlyAtEnd py!"--" body) : XmlComment (py!"<!--" ++ body ++ py!"-->")

/-- a processing instruction -/
inductive XmlPi : PyStr → Prop
  | mk {target body : PyStr} (ht : XmlName target)
      (hx : target ∉ [py!"xml", py!"xmL", py!"xMl", py!"xML", py!"Xml", py!"XmL", py!"XMl", py!"XML"])
      (hb : body = [] ∨ ∃ c t, body = c :: t ∧ XmlBlank [c]) (hc : ∀ c ∈ body, XmlChar c) (h : OnlyAtEnd py!"?>" body) :
      XmlPi (py!"<?" ++ target ++ body ++ py!"?>")

/-- the text of an element with the given character data -/
def textOf (d : PyStr) : Option PyStr := if d = [] then none else some d

mutual
/-- an element -/
inductive XmlElement : PyStr → Xml → Prop
  | empty {name as b : PyStr} {attrs : List (PyStr × PyStr)} (hn : XmlName name) (ha : XmlAttrs as attrs)
      (hd : (attrs.map Prod.fst).Nodup) (hb : XmlBlank b) :
      XmlElement (py!"<" ++ name ++ as ++ b ++ py!"/>") (.elem name attrs none [])
  | full {name as b b' s d : PyStr} {attrs : List (PyStr × PyStr)} {xs : List Xml} (hn : XmlName name) (ha : XmlAttrs as attrs)
      (hd : (attrs.map Prod.fst).Nodup) (hb : XmlBlank b) (hb' : XmlBlank b') (hs : XmlContent s d xs) :
      XmlElement (py!"<" ++ name ++ as ++ b ++ py!">" ++ s ++ py!"</" ++ name ++ b' ++ py!">") (.elem name attrs (textOf d) xs)
/-- the content of an element: its text, its character data (without that of its children) and its children -/
inductive XmlContent : PyStr → PyStr → List Xml → Prop
  | nil : XmlContent [] [] []
  | char {c : Char} {t d : PyStr} {xs : List Xml} (hc : XmlChar c) (h : c ≠ '<' ∧ c ≠ '&')
      (hcd : ¬ py!"]]>" <+: c :: t) (ht : XmlContent t d xs) : XmlContent (c :: t) (c :: d) xs
  | ref {r : PyStr} {c : Char} {t d : PyStr} {xs : List Xml} (h : XmlRef r c) (ht : XmlContent t d xs) :
      XmlContent (r ++ t) (c :: d) xs
  | cdata {s t d : PyStr} {xs : List Xml} (hc : ∀ c ∈ s, XmlChar c) (h : OnlyAtEnd py!"]]>" s) (ht : XmlContent t d xs) :
      XmlContent (py!"<![CDATA[" ++ s ++ py!"]]>" ++ t) (s ++ d) xs
  | comment {s t d : PyStr} {xs : List Xml} (h : XmlComment s) (ht : XmlContent t d xs) : XmlContent (s ++ t) d xs
  | pi {s t d : PyStr} {xs : List Xml} (h : XmlPi s) (ht : XmlContent t d xs) : XmlContent (s ++ t) d xs
  | elem {s t d : PyStr} {x : Xml} {xs : List Xml} (hs : XmlElement s x) (ht : XmlContent t d xs) : XmlContent (s ++ t) d (x :: xs)
end

/-- white space, comments and processing instructions -/
inductive XmlMisc : PyStr → Prop
  | nil : XmlMisc []
  | blank {b t : PyStr} (h : XmlBlank b) (ht : XmlMisc t) : XmlMisc (b ++ t)
  | comment {s t : PyStr} (h : XmlComment s) (ht : XmlMisc t) : XmlMisc (s ++ t)
  | pi {s t : PyStr} (h : XmlPi s) (ht : XmlMisc t) : XmlMisc (s ++ t)

/-- a version number: `1.` and digits -/
def XmlVersion (v : PyStr) : Prop := ∃ ds, v = py!"1." ++ ds ∧ ds ≠ [] ∧ ∀ d ∈ ds, d ∈ py!"0123456789"

/-- the name of an encoding -/
def XmlEncoding (e : PyStr) : Prop :=
  ∃ c t, e = c :: t ∧ c ∈ capitals ++ smallLetters ∧ ∀ d ∈ t, d ∈ capitals ++ smallLetters ++ py!"0123456789._-"

/-- an XML declaration: the version, then possibly the encoding, then possibly `standalone`, written like attributes but without
references -/
def XmlDeclaration (s : PyStr) : Prop :=
  ∃ as b v enc sta, s = py!"<?xml" ++ as ++ b ++ py!"?>" ∧ XmlAttrs as ((py!"version", v) :: enc ++ sta) ∧ XmlBlank b ∧ '&' ∉ as ∧
    XmlVersion v ∧ (enc = [] ∨ ∃ e, enc = [(py!"encoding", e)] ∧ XmlEncoding e) ∧
    (sta = [] ∨ sta = [(py!"standalone", py!"yes")] ∨ sta = [(py!"standalone", py!"no")])

/-- a document with the root element `x` -/
def XmlDocument (s : PyStr) (x : Xml) : Prop :=
  ∃ decl m e m', s = decl ++ m ++ e ++ m' ∧ (decl = [] ∨ XmlDeclaration decl) ∧ XmlMisc m ∧ XmlElement e x ∧ XmlMisc m'

mutual
/-- the elements differ at most in white space around their character data -/
inductive SameXml : Xml → Xml → Prop
  | mk {tag : PyStr} {attrib : List (PyStr × PyStr)} {text text' : Option PyStr} {children children' : List Xml}
      (ht : trimText text = trimText text') (hc : SameXmls children children') :
      SameXml (.elem tag attrib text children) (.elem tag attrib text' children')
/-- the same for lists -/
inductive SameXmls : List Xml → List Xml → Prop
  | nil : SameXmls [] []
  | cons {x y : Xml} {xs ys : List Xml} (h : SameXml x y) (hs : SameXmls xs ys) : SameXmls (x :: xs) (y :: ys)
end

mutual
/-- an element that lxml can hold: names are (ASCII) names, no attribute occurs twice, all characters are XML characters -/
inductive ValidXml : Xml → Prop
  | mk {tag : PyStr} {attrib : List (PyStr × PyStr)} {text : Option PyStr} {children : List Xml} (ht : XmlName tag ∧ ∀ c ∈ tag, c.toNat < 128)
      (ha : ∀ p ∈ attrib, XmlName p.1 ∧ (∀ c ∈ p.1, c.toNat < 128) ∧ ∀ c ∈ p.2, XmlChar c) (hd : (attrib.map Prod.fst).Nodup)
      (hx : ∀ s, text = some s → ∀ c ∈ s, XmlChar c) (hc : ValidXmls children) : ValidXml (.elem tag attrib text children)
/-- the same for lists -/
inductive ValidXmls : List Xml → Prop
  | nil : ValidXmls []
  | cons {x : Xml} {xs : List Xml} (h : ValidXml x) (hs : ValidXmls xs) : ValidXmls (x :: xs)
end

/-- the text without a byte order mark and with normalised line ends -/
def Normalised (text s : PyStr) : Prop :=
  s = universalNewlines text ∧ ¬ ['\ufeff'] <+: text ∨ ∃ t, text = '\ufeff' :: t ∧ s = universalNewlines t

mutual
/-- two elements that differ in their texts and in the order of their attributes at most -/
inductive SameMig : Xml → Xml → Prop
  | mk {tag : PyStr} {attrib attrib' : List (PyStr × PyStr)} {text text' : Option PyStr} {children children' : List Xml}
      (ha : attrib.Perm attrib') (hd : (attrib.map Prod.fst).Nodup) (hc : SameMigs children children') :
      SameMig (.elem tag attrib text children) (.elem tag attrib' text' children')
/-- the same for lists -/
inductive SameMigs : List Xml → List Xml → Prop
  | nil : SameMigs [] []
  | cons {x y : Xml} {xs ys : List Xml} (h : SameMig x y) (hs : SameMigs xs ys) : SameMigs (x :: xs) (y :: ys)
end

end Verif
