import Verif.Model.Cli
/-!
# Lone surrogates: the command line tool for texts that UTF-8 cannot express

A Python `str` may hold lone surrogates; a JSON file brings them in as escapes (`\ud800`). `Char` has none. In this file the characters
U+10F800 … U+10FFFF (the last 2048 private use characters) stand for them, in their order; so texts which contain these characters themselves are
not modelled here. All functions of the code between reading and writing treat a surrogate as they treat a private use character: both are
no letters, digits or white space and have no other case. Only the codec makes a difference.
-/

namespace Verif
open FileProg

/-- the character that stands for a lone surrogate (serves cli.py:82-84) -/
def standIn (unit : Nat) : Char := Char.ofNat (unit + 0x102000)

/-- this character stands for a lone surrogate (serves cli.py:82-99) -/
def isStandIn (c : Char) : Bool := decide (0x10F800 ≤ c.toNat)

/-! ## reading -/

/-- the parts of the text of a JSON document: an escape `\uXXXX` with the number it stands for, another escape, a character (serves cli.py:82-84) -/
inductive JsonToken where
  | unit (digits : List Char) (n : Nat)
  | escape (c : Char)
  | char (c : Char)

/-- cut a text into its parts; behind a faulty escape, which is a `JSONDecodeError`, it does not matter how (serves cli.py:82-84) -/
def jsonTokens : PyStr → List JsonToken
  | [] => []
  | '\\' :: 'u' :: a :: b :: c :: d :: rest =>
    match parseHex [a, b, c, d] with
    | some n => .unit [a, b, c, d] n :: jsonTokens rest
    | none => .escape 'u' :: (a :: b :: c :: d :: rest).map .char
  | '\\' :: c :: rest => .escape c :: jsonTokens rest
  | c :: rest => .char c :: jsonTokens rest

/-- the text goes on with the escape of a low surrogate (serves cli.py:82-84) -/
def startsLow : List JsonToken → Bool
  | .unit _ m :: _ => decide (0xDC00 ≤ m ∧ m ≤ 0xDFFF)
  | _ => false

/-- write the stand-ins of lone surrogates instead of their escapes; pairs stay as they are. `second`: the escape of a high surrogate that
waits for this low one has just been written. (serves cli.py:82-84) -/
def joinTokens (second : Bool) : List JsonToken → PyStr
  | [] => []
  | .unit ds n :: ts =>
    if 0xD800 ≤ n ∧ n ≤ 0xDBFF then
      if startsLow ts then '\\' :: 'u' :: (ds ++ joinTokens true ts) else standIn n :: joinTokens false ts
    else if 0xDC00 ≤ n ∧ n ≤ 0xDFFF then
      if second then '\\' :: 'u' :: (ds ++ joinTokens false ts) else standIn n :: joinTokens false ts
    else '\\' :: 'u' :: (ds ++ joinTokens false ts)
  | .escape c :: ts => '\\' :: c :: joinTokens false ts
  | .char c :: ts => c :: joinTokens false ts

/-- the text with stand-ins for the escapes of lone surrogates (serves cli.py:82-84) -/
def loneText (s : PyStr) : PyStr := joinTokens false (jsonTokens s)

/-- `json.loads` for texts with escapes of lone surrogates (serves cli.py:82, 84, 103) -/
def jsonLoadsLone (s : PyStr) : PyRes Json := jsonLoads (loneText s)

/-! ## writing -/

/-- lists and dictionaries are written by a generator of their own (serves cli.py:99) -/
def Json.isContainer : Json → Bool
  | .arr _ => true
  | .obj _ => true
  | _ => false

mutual
/-- the pieces that `json.dump` hands to `write` one after the other — `_make_iterencode` in `json/encoder.py` (serves cli.py:99) -/
def jsonPieces (st : JsonStyle) (level : Nat) : Json → List PyStr
  | .arr [] => [py!"[]"]
  | .arr (j :: l) => itemPieces st (level + 1) ('[' :: st.newline (level + 1)) (j :: l) ++ [st.newline level, py!"]"]
  | .obj [] => [py!"{}"]
  | .obj ((k, v) :: d) =>
    py!"{" :: st.newline (level + 1) :: jsonQuote st.ensureAscii k :: py!": " :: (jsonPieces st (level + 1) v ++
      (memberPieces st (level + 1) d ++ [st.newline level, py!"}"]))
  | .null => [st.render level .null]
  | .bool b => [st.render level (.bool b)]
  | .num i => [st.render level (.num i)]
  | .float f => [st.render level (.float f)]
  | .str s => [st.render level (.str s)]
/-- `_iterencode_list`: the bracket or the separator (`buf`) is written together with the item, unless this is a list or a dictionary
(serves cli.py:99) -/
def itemPieces (st : JsonStyle) (level : Nat) (buf : PyStr) : List Json → List PyStr
  | [] => []
  | j :: l =>
    (if j.isContainer then buf :: jsonPieces st level j else [buf ++ st.render level j]) ++
      itemPieces st level (st.separator level) l
/-- `_iterencode_dict`: the members behind the first one (serves cli.py:99) -/
def memberPieces (st : JsonStyle) (level : Nat) : List (PyStr × Json) → List PyStr
  | [] => []
  | (k, v) :: d =>
    st.separator level :: jsonQuote st.ensureAscii k :: py!": " :: (jsonPieces st level v ++ memberPieces st level d)
end

/-- the pieces can be encoded (serves cli.py:98-99) -/
def encodable (piece : PyStr) : Bool := !piece.any isStandIn

/-- writing the MAUS: `write` encodes each piece; the first one that cannot be encoded raises a `UnicodeEncodeError` (a `ValueError`),
and leaving the `with` statement writes what has been encoded before. If this does not fit on the device, the `OSError` of `close` comes
out instead. — /repo/src/maus/cli.py:95-99 -/
def writeMausLone (env : FileEnv) (maus : DeepAhb) (p : FsPath) : FileProg Unit := do
  let pieces := jsonPieces cliStyle 0 maus.dump.sorted
  writeBytes env p (encodeUtf8 (pieces.takeWhile encodable).flatten)
  if pieces.all encodable then pure () else lift (.error .valueError)

/-! ## the command -/

/-- reading the input files and creating the MAUS — cli.py:81-89 -/
def generateLone (env : CliEnv) (o : CliOptions) : FileProg DeepAhb := do
  let flatText ← readText env.files o.flatAhbPath
  let flat ← lift ((jsonLoadsLone flatText).bind FlatAhb.load)
  let sghText ← readText env.files o.sghPath
  let sgh ← lift ((jsonLoadsLone sghText).bind Sgh.load)
  let root ← readMig env o.templatePath
  let (_, maus) ← lift (toDeepAhb (migLookup root) env.posStr flat sgh)
  pure maus

/-- comparing the MAUS with a stored one — cli.py:101-114 -/
def checkMausLone (env : FileEnv) (maus : DeepAhb) (p : FsPath) : FileProg Unit := do
  let text ← readText env p
  let expected ← lift ((jsonLoadsLone text).bind DeepAhb.load)
  if expected.resetAhbLineIndex = maus.resetAhbLineIndex then say true
  else do
    say false
    lift (.error .abort)

/-- `main` — cli.py:62-114 (the second test of the options, cli.py:91-93, never holds and is left out) -/
def cliMainLone (env : CliEnv) (o : CliOptions) : FileProg Unit :=
  if (o.checkPath.isNone && o.outputPath.isNone) || (o.checkPath.isSome && o.outputPath.isSome) then do
    say false
    lift (.error .abort)
  else do
    let maus ← generateLone env o
    forOption o.outputPath (writeMausLone env.files maus)
    forOption o.checkPath (checkMausLone env.files maus)

/-- the command: click's checks, then `main` — cli.py:25-114 -/
def cliCommandLone (env : CliEnv) (o : CliOptions) : FileProg Unit := do
  clickChecks env.files o
  cliMainLone env o

end Verif
