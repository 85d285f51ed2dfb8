import Verif.Py.Json
import Verif.Py.Unicode
/-!
# The text layer of JSON: `json.dumps` and `json.loads` of CPython 3.11/3.12

Not modelled: strings with lone surrogates (`loads` answers with `Exc.other` if it meets one of them), the recursion limit, and the
limit on the number of digits of an `int`. No schema dumps a float; `render` has no text for them.
-/

namespace Verif

/-! ## writing -/

/-- the options of `json.dumps` that are used: `indent`, `ensure_ascii`, `sort_keys` -/
structure JsonStyle where
  indent : Option Nat := none
  ensureAscii : Bool := true
  sortKeys : Bool := false
  deriving DecidableEq

/-- `'\\u{0:04x}'.format(n)` -/
def uEscape (n : Nat) : PyStr := '\\' :: 'u' :: hexDigits 4 n

/-- the replacement of one character in a string — `ESCAPE`, `ESCAPE_ASCII` and `ESCAPE_DCT` in `json/encoder.py` -/
def jsonEscape (ascii : Bool) (c : Char) : PyStr :=
  let n := c.toNat
  if n = 34 then ['\\', '"']
  else if n = 92 then ['\\', '\\']
  else if n = 10 then ['\\', 'n']
  else if n = 13 then ['\\', 'r']
  else if n = 9 then ['\\', 't']
  else if n = 12 then ['\\', 'f']
  else if n = 8 then ['\\', 'b']
  else if n < 32 then uEscape n
  else if ascii && 126 < n then
    if n < 65536 then uEscape n
    else uEscape (55296 + (n - 65536) / 1024) ++ uEscape (56320 + (n - 65536) % 1024)
  else [c]

/-- `encode_basestring` and `encode_basestring_ascii` -/
def jsonQuote (ascii : Bool) (s : PyStr) : PyStr := '"' :: (s.flatMap (jsonEscape ascii) ++ ['"'])

/-- insert a member into a list of members that is sorted by key -/
def insertMember (m : PyStr × Json) : List (PyStr × Json) → List (PyStr × Json)
  | [] => [m]
  | m' :: l => if m.1 ≤ m'.1 then m :: m' :: l else m' :: insertMember m l

mutual
/-- `sort_keys=True`: `sorted(dct.items())` in every dictionary; the keys are distinct, so they decide -/
def Json.sorted : Json → Json
  | .arr l => .arr (Json.sortedItems l)
  | .obj d => .obj (Json.sortedMembers d)
  | .null => .null
  | .bool b => .bool b
  | .num i => .num i
  | .float f => .float f
  | .str s => .str s
/-- the items of a list -/
def Json.sortedItems : List Json → List Json
  | [] => []
  | j :: l => j.sorted :: Json.sortedItems l
/-- the members of a dictionary -/
def Json.sortedMembers : List (PyStr × Json) → List (PyStr × Json)
  | [] => []
  | (k, v) :: d => insertMember (k, v.sorted) (Json.sortedMembers d)
end

namespace JsonStyle

/-- `newline_indent` — nothing without `indent` -/
def newline (st : JsonStyle) (level : Nat) : PyStr :=
  match st.indent with
  | none => []
  | some k => '\n' :: List.replicate (k * level) ' '

/-- what separates two items: `", "` without `indent`, else `","` and a new line -/
def separator (st : JsonStyle) (level : Nat) : PyStr :=
  match st.indent with
  | none => [',', ' ']
  | some _ => ',' :: st.newline level

mutual
/-- `_make_iterencode` in `json/encoder.py` (with `indent`) and the encoder in C (without): the chunks, concatenated -/
def render (st : JsonStyle) (level : Nat) : Json → PyStr
  | .null => py!"null"
  | .bool true => py!"true"
  | .bool false => py!"false"
  | .num i => intToDec i
  | .float _ => py!"float"
  | .str s => jsonQuote st.ensureAscii s
  | .arr [] => py!"[]"
  | .arr (j :: l) =>
    '[' :: (st.newline (level + 1) ++ (st.render (level + 1) j ++ (st.renderItems (level + 1) l ++ (st.newline level ++ [']']))))
  | .obj [] => py!"{}"
  | .obj ((k, v) :: d) =>
    '{' :: (st.newline (level + 1) ++ (jsonQuote st.ensureAscii k ++ (':' :: ' ' :: (st.render (level + 1) v ++
      (st.renderMembers (level + 1) d ++ (st.newline level ++ ['}']))))))
/-- the items behind the first one -/
def renderItems (st : JsonStyle) (level : Nat) : List Json → PyStr
  | [] => []
  | j :: l => st.separator level ++ (st.render level j ++ st.renderItems level l)
/-- the members behind the first one -/
def renderMembers (st : JsonStyle) (level : Nat) : List (PyStr × Json) → PyStr
  | [] => []
  | (k, v) :: d => st.separator level ++ (jsonQuote st.ensureAscii k ++ (':' :: ' ' :: (st.render level v ++ st.renderMembers level d)))
end

end JsonStyle

/-- `json.dumps(obj, indent=…, ensure_ascii=…, sort_keys=…)`; `json.dump` writes the same text to a file -/
def jsonDumps (st : JsonStyle) (j : Json) : PyStr := st.render 0 (if st.sortKeys then j.sorted else j)

/-! ## reading -/

/-- `[ \t\n\r]` -/
def isJsonSpace (c : Char) : Bool := c == ' ' || c == '\t' || c == '\n' || c == '\r'

/-- `WHITESPACE.match` -/
def skipJsonSpace (s : PyStr) : PyStr := s.dropWhile isJsonSpace

/-- the simple escapes — `BACKSLASH` in `json/decoder.py` -/
def simpleEscape (c : Char) : Option Nat :=
  if c = '"' then some 34 else if c = '\\' then some 92 else if c = '/' then some 47 else if c = 'b' then some 8
  else if c = 'f' then some 12 else if c = 'n' then some 10 else if c = 'r' then some 13 else if c = 't' then some 9
  else none

/-- add a unit in front of the units of the rest -/
def consUnit (n : Nat) (r : PyRes (List Nat × PyStr)) : PyRes (List Nat × PyStr) :=
  match r with
  | .ok (l, rest) => .ok (n :: l, rest)
  | .error e => .error e

/-- `scanstring` (strict) behind the opening quote: the code points and escaped UTF-16 units up to the closing quote -/
def scanUnits : PyStr → PyRes (List Nat × PyStr)
  | [] => .error .valueError
  | '"' :: rest => .ok ([], rest)
  | '\\' :: 'u' :: a :: b :: c :: d :: rest =>
    match parseHex [a, b, c, d] with
    | some n => consUnit n (scanUnits rest)
    | none => .error .valueError
  | '\\' :: c :: rest =>
    match simpleEscape c with
    | some n => consUnit n (scanUnits rest)
    | none => .error .valueError
  | c :: rest => if c.toNat < 32 then .error .valueError else consUnit c.toNat (scanUnits rest)

/-- join surrogate pairs; `none` if there is a lone surrogate -/
def joinUnits : List Nat → Option PyStr
  | [] => some []
  | n :: rest =>
    if 55296 ≤ n ∧ n ≤ 56319 then
      match rest with
      | m :: rest' =>
        if 56320 ≤ m ∧ m ≤ 57343 then (joinUnits rest').map (Char.ofNat (65536 + (n - 55296) * 1024 + (m - 56320)) :: ·)
        else none
      | [] => none
    else if 56320 ≤ n ∧ n ≤ 57343 then none
    else (joinUnits rest).map (Char.ofNat n :: ·)

/-- a string behind the opening quote -/
def parseJsonString (s : PyStr) : PyRes (PyStr × PyStr) :=
  match scanUnits s with
  | .error e => .error e
  | .ok (l, rest) =>
    match joinUnits l with
    | none => .error .other
    | some t => .ok (t, rest)

/-- `0` … `9` -/
def isAsciiDigit (c : Char) : Bool := 48 ≤ c.toNat && c.toNat ≤ 57

/-- the fraction that follows: its digits, and the text behind it -/
def scanFraction : PyStr → Option PyStr × PyStr
  | '.' :: c :: rest =>
    if isAsciiDigit c then (some (c :: rest.takeWhile isAsciiDigit), rest.dropWhile isAsciiDigit) else (none, '.' :: c :: rest)
  | s => (none, s)

/-- the digits of an exponent; `none` if there are none -/
def exponentDigits (negative : Bool) (s : PyStr) : Option (Int × PyStr) :=
  match s.takeWhile isAsciiDigit with
  | [] => none
  | c :: ds => some (if negative then - (decToNat (c :: ds) : Int) else decToNat (c :: ds), s.dropWhile isAsciiDigit)

/-- the exponent behind the letter `e`, with an optional sign -/
def signedExponent : PyStr → Option (Int × PyStr)
  | '+' :: s => exponentDigits false s
  | '-' :: s => exponentDigits true s
  | s => exponentDigits false s

/-- the exponent that follows, and the text behind it -/
def scanExponent : PyStr → Option Int × PyStr
  | c :: s =>
    if c = 'e' ∨ c = 'E' then
      match signedExponent s with
      | some (k, rest) => (some k, rest)
      | none => (none, c :: s)
    else (none, c :: s)
  | [] => (none, [])

/-- the number with these digits: a `float` if a fraction or an exponent follows, otherwise an `int` -/
def finishNumber (negative : Bool) (digits rest : PyStr) : Json × PyStr :=
  let (fraction, rest1) := scanFraction rest
  let (exponent, rest2) := scanExponent rest1
  if fraction.isNone && exponent.isNone then (.num (if negative then - (decToNat digits : Int) else decToNat digits), rest)
  else
    let behind := fraction.getD []
    (.float (decimalToFloat negative (decToNat (digits ++ behind)) (exponent.getD 0 - behind.length)), rest2)

/-- a number behind the sign — `_match_number_unicode` in `_json.c` -/
def parseUnsigned (negative : Bool) : PyStr → PyRes (Json × PyStr)
  | [] => .error .valueError
  | c :: rest =>
    if c = '0' then .ok (finishNumber negative ['0'] rest)
    else if isAsciiDigit c then .ok (finishNumber negative (c :: rest.takeWhile isAsciiDigit) (rest.dropWhile isAsciiDigit))
    else .error .valueError

/-- numbers and constants — `scan_once_unicode` in `_json.c` -/
def parseScalar (s : PyStr) : PyRes (Json × PyStr) :=
  if py!"null".isPrefixOf s then .ok (.null, s.drop 4)
  else if py!"true".isPrefixOf s then .ok (.bool true, s.drop 4)
  else if py!"false".isPrefixOf s then .ok (.bool false, s.drop 5)
  else if py!"NaN".isPrefixOf s then .ok (.float .nan, s.drop 3)
  else if py!"Infinity".isPrefixOf s then .ok (.float (.inf false), s.drop 8)
  else if py!"-Infinity".isPrefixOf s then .ok (.float (.inf true), s.drop 9)
  else match s with
    | '-' :: rest => parseUnsigned true rest
    | _ => parseUnsigned false s

mutual
/-- `scan_once`; the first argument bounds the number of nested calls -/
def parseJsonValue : Nat → PyStr → PyRes (Json × PyStr)
  | 0, _ => .error .other
  | fuel + 1, s =>
    match s with
    | '"' :: rest => (parseJsonString rest).map fun x => (.str x.1, x.2)
    | '[' :: rest =>
      match skipJsonSpace rest with
      | ']' :: rest' => .ok (.arr [], rest')
      | rest' => (parseJsonItems fuel rest').map fun x => (.arr x.1, x.2)
    | '{' :: rest =>
      match skipJsonSpace rest with
      | '}' :: rest' => .ok (.obj [], rest')
      | '"' :: rest' => (parseJsonMembers fuel rest').map fun x => (.obj (dictUpdate [] x.1), x.2)
      | _ => .error .valueError
    | _ => parseScalar s
/-- `JSONArray` behind the opening bracket and white space -/
def parseJsonItems : Nat → PyStr → PyRes (List Json × PyStr)
  | 0, _ => .error .other
  | fuel + 1, s =>
    match parseJsonValue fuel s with
    | .error e => .error e
    | .ok (v, rest) =>
      match skipJsonSpace rest with
      | ']' :: rest' => .ok ([v], rest')
      | ',' :: rest' => (parseJsonItems fuel (skipJsonSpace rest')).map fun x => (v :: x.1, x.2)
      | _ => .error .valueError
/-- `JSONObject` behind the quote that opens a key -/
def parseJsonMembers : Nat → PyStr → PyRes (List (PyStr × Json) × PyStr)
  | 0, _ => .error .other
  | fuel + 1, s =>
    match parseJsonString s with
    | .error e => .error e
    | .ok (k, rest) =>
      match skipJsonSpace rest with
      | ':' :: rest' =>
        match parseJsonValue fuel (skipJsonSpace rest') with
        | .error e => .error e
        | .ok (v, rest'') =>
          match skipJsonSpace rest'' with
          | '}' :: rest3 => .ok ([(k, v)], rest3)
          | ',' :: rest3 =>
            match skipJsonSpace rest3 with
            | '"' :: rest4 => (parseJsonMembers fuel rest4).map fun x => ((k, v) :: x.1, x.2)
            | _ => .error .valueError
          | _ => .error .valueError
      | _ => .error .valueError
end

/-- `json.loads(s)`; a `JSONDecodeError` is a `ValueError`. No more than `2 * len(s) + 2` nested calls are possible. -/
def jsonLoads (s : PyStr) : PyRes Json :=
  if ['\uFEFF'].isPrefixOf s then .error .valueError
  else match parseJsonValue (2 * s.length + 2) (skipJsonSpace s) with
    | .error e => .error e
    | .ok (j, rest) => if (skipJsonSpace rest).isEmpty then .ok j else .error .valueError

end Verif
