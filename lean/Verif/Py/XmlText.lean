import Verif.Py.Xml
import Verif.Py.Files
import Verif.Py.Json
/-!
# The text of XML documents

A non-validating XML parser (the part of expat and libxml2 that is used for documents without a document type declaration) and
the serialisation of lxml. Simplifications: a `<!DOCTYPE` is refused; the XML declaration has to follow the grammar of XML 1.0
(expat also accepts other version numbers); every character from U+0080 on is taken for a letter in names; namespaces are not resolved; libxml2's limit of 256 nested elements is
not modelled. The text of an element is all of its character data.
-/

namespace Verif

/-- XML white space -/
def isXmlSpace (c : Char) : Bool := c == ' ' || c == '\t' || c == '\n' || c == '\r'

/-- `[A-Za-z]` -/
def isAsciiLetter (c : Char) : Bool := isAZ c || isaz c

/-- `[0-9]` -/
def isDecDigit (c : Char) : Bool := 48 ≤ c.toNat && c.toNat ≤ 57

/-- may a name start with this character? -/
def isNameStart (c : Char) : Bool :=
  (65 ≤ c.toNat && c.toNat ≤ 90) || (97 ≤ c.toNat && c.toNat ≤ 122) || c == '_' || c == ':' || 128 ≤ c.toNat

/-- may a name contain this character? -/
def isNameChar (c : Char) : Bool := isNameStart c || (48 ≤ c.toNat && c.toNat ≤ 57) || c == '-' || c == '.'

/-- the rest behind a prefix -/
def dropPrefix? : PyStr → PyStr → Option PyStr
  | [], s => some s
  | _ :: _, [] => none
  | p :: ps, c :: s => if p = c then dropPrefix? ps s else none

/-- a name and what follows -/
def xmlName : PyStr → Option (PyStr × PyStr)
  | [] => none
  | c :: s => if isNameStart c then some (c :: s.takeWhile isNameChar, s.dropWhile isNameChar) else none

/-- everything in front of `stop`, and what follows -/
def xmlUntil (stop : PyStr) : PyStr → Option (PyStr × PyStr)
  | [] => none
  | c :: s => match dropPrefix? stop (c :: s) with
    | some rest => some ([], rest)
    | none => if isXmlChar c then (xmlUntil stop s).map fun p => (c :: p.1, p.2) else none

/-- the number with the given decimal digits -/
def decNumber (s : PyStr) : Option Nat :=
  if s.isEmpty then none
  else s.foldl (fun acc c => acc.bind fun n => if 48 ≤ c.toNat && c.toNat ≤ 57 then some (10 * n + (c.toNat - 48)) else none) (some 0)

/-- the number with the given hexadecimal digits -/
def hexNumber (s : PyStr) : Option Nat := if s.isEmpty then none else parseHex s

/-- the character with a code point, if it may occur in XML -/
def xmlCharOf (n : Nat) : Option Char := if n.isValidChar && isXmlChar (Char.ofNat n) then some (Char.ofNat n) else none

/-- the character that is meant by `&body;` -/
def xmlReference (body : PyStr) : Option Char :=
  if body = py!"lt" then some '<' else if body = py!"gt" then some '>' else if body = py!"amp" then some '&'
  else if body = py!"quot" then some '"' else if body = py!"apos" then some '\''
  else match body with
    | '#' :: 'x' :: ds => (hexNumber ds).bind xmlCharOf
    | '#' :: ds => (decNumber ds).bind xmlCharOf
    | _ => none

/-- a reference (behind the `&`) and what follows -/
def xmlRef (s : PyStr) : Option (Char × PyStr) := do
  let (body, rest) ← xmlUntil [';'] s
  let c ← xmlReference body
  pure (c, rest)

/-- the value of an attribute up to the closing quote, and what follows -/
def xmlAttVal (q : Char) : Nat → PyStr → Option (PyStr × PyStr)
  | 0, _ => none
  | _, [] => none
  | n + 1, c :: s =>
    if c = q then some ([], s)
    else if c = '<' then none
    else if c = '&' then do
      let (d, r) ← xmlRef s
      let (v, r) ← xmlAttVal q n r
      pure (d :: v, r)
    else if isXmlChar c then do
      let (v, r) ← xmlAttVal q n s
      pure ((if isXmlSpace c then ' ' else c) :: v, r)
    else none

/-- the attributes of a tag up to (not including) its `>` or `/>` -/
def xmlAttrs : Nat → PyStr → Option (List (PyStr × PyStr) × PyStr)
  | 0, _ => none
  | n + 1, s =>
    let t := s.dropWhile isXmlSpace
    if py!">".isPrefixOf t || py!"/>".isPrefixOf t then some ([], t)
    else if t.length = s.length then none
    else do
      let (name, r) ← xmlName t
      let r ← dropPrefix? ['='] (r.dropWhile isXmlSpace)
      match r.dropWhile isXmlSpace with
      | q :: r =>
        if q = '"' || q = '\'' then do
          let (v, r) ← xmlAttVal q n r
          let (as, r) ← xmlAttrs n r
          pure ((name, v) :: as, r)
        else none
      | [] => none

/-- a comment (behind `<!--`): what follows -/
def xmlComment (s : PyStr) : Option PyStr := do
  let (_, r) ← xmlUntil py!"--" s
  dropPrefix? ['>'] r

/-- the reserved names of processing instructions -/
def reservedTargets : List PyStr :=
  [py!"xml", py!"xmL", py!"xMl", py!"xML", py!"Xml", py!"XmL", py!"XMl", py!"XML"]

/-- a processing instruction (behind `<?`): what follows -/
def xmlPi (s : PyStr) : Option PyStr := do
  let (target, r) ← xmlName s
  if target ∈ reservedTargets then none
  else do
    let (body, r) ← xmlUntil py!"?>" r
    if body.isEmpty || isXmlSpace (body.headD ' ') then some r else none

/-- the text of an element with the given character data -/
def xmlTextOf (d : PyStr) : Option PyStr := if d.isEmpty then none else some d

mutual
/-- the content of an element up to `</`: the character data, the child elements, and what follows -/
def xmlContent : Nat → PyStr → Option (PyStr × List Xml × PyStr)
  | 0, _ => none
  | _, [] => none
  | n + 1, c :: s =>
    if c = '<' then
      if py!"/".isPrefixOf s then some ([], [], c :: s)
      else match dropPrefix? py!"!--" s with
        | some r => do
          let r ← xmlComment r
          xmlContent n r
        | none => match dropPrefix? py!"![CDATA[" s with
          | some r => do
            let (d, r) ← xmlUntil py!"]]>" r
            let (d', xs, r) ← xmlContent n r
            pure (d ++ d', xs, r)
          | none => match dropPrefix? py!"?" s with
            | some r => do
              let r ← xmlPi r
              xmlContent n r
            | none => do
              let (x, r) ← xmlElement n s
              let (d, xs, r) ← xmlContent n r
              pure (d, x :: xs, r)
    else if c = '&' then do
      let (e, r) ← xmlRef s
      let (d, xs, r) ← xmlContent n r
      pure (e :: d, xs, r)
    else if c = ']' && py!"]>".isPrefixOf s then none
    else if isXmlChar c then do
      let (d, xs, r) ← xmlContent n s
      pure (c :: d, xs, r)
    else none

/-- an element (behind its first `<`), and what follows -/
def xmlElement : Nat → PyStr → Option (Xml × PyStr)
  | 0, _ => none
  | n + 1, s => do
    let (name, r) ← xmlName s
    let (attrs, r) ← xmlAttrs n r
    if !decide (attrs.map Prod.fst).Nodup then none
    else match dropPrefix? py!"/>" r with
      | some r => some (.elem name attrs none [], r)
      | none => do
        let r ← dropPrefix? py!">" r
        let (d, xs, r) ← xmlContent n r
        let r ← dropPrefix? py!"</" r
        let (name', r) ← xmlName r
        if name' = name then do
          let r ← dropPrefix? py!">" (r.dropWhile isXmlSpace)
          some (.elem name attrs (xmlTextOf d) xs, r)
        else none
end

/-- white space, comments and processing instructions: what follows -/
def xmlMisc : Nat → PyStr → Option PyStr
  | 0, _ => none
  | n + 1, s =>
    let s := s.dropWhile isXmlSpace
    match dropPrefix? py!"<!--" s with
    | some r => do
      let r ← xmlComment r
      xmlMisc n r
    | none => match dropPrefix? py!"<?" s with
      | some r => do
        let r ← xmlPi r
        xmlMisc n r
      | none => some s

/-- `1.` and digits -/
def isVersionNum : PyStr → Bool
  | '1' :: '.' :: d :: ds => (d :: ds).all isDecDigit
  | _ => false

/-- the name of an encoding -/
def isEncName : PyStr → Bool
  | c :: t => isAsciiLetter c && t.all fun d => isAsciiLetter d || isDecDigit d || d == '.' || d == '_' || d == '-'
  | [] => false

/-- the last part of an XML declaration -/
def isStandalone : List (PyStr × PyStr) → Bool
  | [] => true
  | [(k, v)] => decide (k = py!"standalone") && (decide (v = py!"yes") || decide (v = py!"no"))
  | _ => false

/-- version, encoding and `standalone`, in this order; the version is required -/
def isDeclaration : List (PyStr × PyStr) → Bool
  | (k, v) :: as => decide (k = py!"version") && isVersionNum v && (isStandalone as || match as with
    | (k', e) :: as => decide (k' = py!"encoding") && isEncName e && isStandalone as
    | [] => false)
  | [] => false

/-- the content of an XML declaration: it is written like attributes, but without references -/
def xmlDeclarationBody (s : PyStr) : Bool :=
  match xmlAttrs (s.length + 2) (s ++ ['>']) with
  | some (as, r) => decide (r = ['>']) && decide ('&' ∉ s) && isDeclaration as
  | none => false

/-- the XML declaration, if there is one: what follows -/
def xmlDeclaration (s : PyStr) : Option PyStr :=
  match dropPrefix? py!"<?xml" s with
  | some (c :: r) =>
    if isXmlSpace c then
      match xmlUntil py!"?>" r with
      | some (body, r) => if xmlDeclarationBody (c :: body) then some r else none
      | none => none
    else some s
  | _ => some s

/-- a document whose line ends have been normalised -/
def xmlDocument (s : PyStr) : Option Xml := do
  let r ← xmlDeclaration s
  let r ← xmlMisc (r.length + 1) r
  let r ← dropPrefix? py!"<" r
  let (x, r) ← xmlElement (r.length + 1) r
  let r ← xmlMisc (r.length + 1) r
  if r.isEmpty then some x else none

/-- the element of an XML document: line ends are normalised (XML 1.0, section 2.11), a byte order mark is skipped -/
def parseXml (text : PyStr) : Option Xml := xmlDocument (universalNewlines ((dropPrefix? ['\ufeff'] text).getD text))

/-! ## equality of elements can be decided -/

mutual
def Xml.decEq : (x y : Xml) → Decidable (x = y)
  | .elem t a s c, .elem t' a' s' c' =>
    if h : t = t' ∧ a = a' ∧ s = s' then
      match Xml.decEqs c c' with
      | isTrue h' => isTrue (by rw [h.1, h.2.1, h.2.2, h'])
      | isFalse h' => isFalse (by intro e; cases e; exact h' rfl)
    else isFalse (by intro e; cases e; exact h ⟨rfl, rfl, rfl⟩)
def Xml.decEqs : (xs ys : List Xml) → Decidable (xs = ys)
  | [], [] => isTrue rfl
  | [], _ :: _ => isFalse (by intro e; cases e)
  | _ :: _, [] => isFalse (by intro e; cases e)
  | x :: xs, y :: ys =>
    match Xml.decEq x y, Xml.decEqs xs ys with
    | isTrue h, isTrue h' => isTrue (by rw [h, h'])
    | isFalse h, _ => isFalse (by intro e; cases e; exact h rfl)
    | _, isFalse h => isFalse (by intro e; cases e; exact h rfl)
end

instance : DecidableEq Xml := Xml.decEq

/-! ## writing -/

/-- a character in text: `&`, `<`, `>` and the carriage return are escaped, and so is everything that is not ASCII -/
def escapeText (c : Char) : PyStr :=
  if c = '&' then py!"&amp;" else if c = '<' then py!"&lt;" else if c = '>' then py!"&gt;"
  else if c = '\r' ∨ 128 ≤ c.toNat then py!"&#" ++ natToDec c.toNat ++ py!";" else [c]

/-- a character in the value of an attribute: additionally the quote, the tabulator and the newline -/
def escapeAttr (c : Char) : PyStr :=
  if c = '"' then py!"&quot;" else if c = '\t' then py!"&#9;" else if c = '\n' then py!"&#10;" else escapeText c

/-- the attributes in a tag -/
def writeAttrs : List (PyStr × PyStr) → PyStr
  | [] => []
  | (k, v) :: as => ' ' :: k ++ '=' :: '"' :: v.flatMap escapeAttr ++ '"' :: writeAttrs as

mutual
/-- `etree.tostring(element)` -/
def Xml.tostring : Xml → PyStr
  | .elem tag attrib text children =>
    if text = none ∧ children.isEmpty then '<' :: tag ++ writeAttrs attrib ++ py!"/>"
    else '<' :: tag ++ writeAttrs attrib ++ py!">" ++ (text.getD []).flatMap escapeText ++ Xml.tostrings children ++
      py!"</" ++ tag ++ py!">"
/-- the elements one after the other -/
def Xml.tostrings : List Xml → PyStr
  | [] => []
  | x :: xs => Xml.tostring x ++ Xml.tostrings xs
end

end Verif
