import Verif.Py.Regex
import Verif.Model.Cli
/-!
# Model of the grammar of `.tree` files in `maus.reader.tree_to_sgh`

All rules of the grammar but `start` are terminals (upper case), so that Lark makes one regular expression of
`SEGMENT_GROUP_CHAIN`. It puts the alternatives of a terminal with the greater minimal length first; this is the order used here.
The result of Lark's parser (Earley with the dynamic lexer) is the token, because the rule `?start` has one child only. The
characters which are dropped by `%ignore WS` can therefore only stand before and behind the token.
-/

namespace Verif
namespace TreeGrammar
open Re

/-- an ASCII digit; the terminal `INT` consists of them (serves tree_to_sgh.py:39) -/
def isTreeDigit (c : Char) : Bool := 48 ≤ c.toNat && c.toNat ≤ 57

/-- `%import common.INT` — tree_to_sgh.py:39 -/
def int : Re := plus (cls isTreeDigit)

/-- the characters of `%import common.WS` — tree_to_sgh.py:40-41 -/
def isWS (c : Char) : Bool := c == ' ' || c == '\t' || c.toNat == 12 || c == '\r' || c == '\n'

/-- `"SG" INT|"UNH"|"UNB"` — tree_to_sgh.py:38 -/
def segmentGroupKey : Re := alt (seq (str py!"SG") int) (alt (str py!"UNH") (str py!"UNB"))

/-- `"/"` — tree_to_sgh.py:37 -/
def rootNode : Re := chr '/'

/-- `"M"|"R"|"N"|"C"|"D"|"O"` — tree_to_sgh.py:36 -/
def obligMark : Re :=
  alt (chr 'M') (alt (chr 'R') (alt (chr 'N') (alt (chr 'C') (alt (chr 'D') (chr 'O')))))

/-- `"an"|"nn"|"np"|"aa"` — tree_to_sgh.py:35 -/
def characterSet : Re := alt (str py!"an") (alt (str py!"nn") (alt (str py!"np") (str py!"aa")))

/-- `INT` — tree_to_sgh.py:34 -/
def compositeLength : Re := int

/-- `[A-Za-z\d\-_]` — tree_to_sgh.py:33 -/
def isEntryChar (c : Char) : Bool :=
  (65 ≤ c.toNat && c.toNat ≤ 90) || (97 ≤ c.toNat && c.toNat ≤ 122) || isDigit c || c == '-' || c == '_'

/-- `/[A-Za-z\d\-_]+/` — tree_to_sgh.py:33 -/
def valuePoolEntry : Re := plus (cls isEntryChar)

/-- `"{" VALUE_POOL_ENTRY("." VALUE_POOL_ENTRY)*  "}"` — tree_to_sgh.py:32 -/
def valuePool : Re :=
  seq (chr '{') (seq valuePoolEntry (seq (star true (seq (chr '.') valuePoolEntry)) (chr '}')))

/-- `OBLIG_MARK [CHARACTER_SET [COMPOSITE_LENGTH [VALUE_POOL]]]` — tree_to_sgh.py:31 -/
def composite : Re := seq obligMark (opt (seq characterSet (opt (seq compositeLength (opt valuePool)))))

/-- `COMPOSITE ("*" COMPOSITE)*` — tree_to_sgh.py:30 -/
def compositeChain : Re := seq composite (star true (seq (chr '*') composite))

/-- `COMPOSITE_CHAIN ("+" COMPOSITE_CHAIN)*` — tree_to_sgh.py:29 -/
def multipleDataElements : Re := seq compositeChain (star true (seq (chr '+') compositeChain))

/-- `/[A-Z]{3,}/` — tree_to_sgh.py:28 -/
def segmentKey : Re := seq (rep 3 (cls isAZ)) (star true (cls isAZ))

/-- `SEGMENT_KEY "#" INT "#"INT "!"?"=" VALUE_POOL_ENTRY` — tree_to_sgh.py:27 -/
def conditionBody : Re :=
  seq segmentKey (seq (chr '#') (seq int (seq (chr '#') (seq int (seq (opt (chr '!')) (seq (chr '=') valuePoolEntry))))))

/-- `"(" CONDITION_BODY ("|"CONDITION_BODY)* ")"` — tree_to_sgh.py:26 -/
def condition : Re :=
  seq (chr '(') (seq conditionBody (seq (star true (seq (chr '|') conditionBody)) (chr ')')))

/-- `CONDITION MULTIPLE_DATA_ELEMENTS ["|"]` — tree_to_sgh.py:25 -/
def conditionedDataElementsSwitch : Re := seq condition (seq multipleDataElements (opt (chr '|')))

/-- `(CONDITIONED_DATA_ELEMENTS_SWITCH*|MULTIPLE_DATA_ELEMENTS";") (CONDITIONED_DATA_ELEMENTS_SWITCH*|MULTIPLE_DATA_ELEMENTS)`
— tree_to_sgh.py:24 -/
def internationalBdewTuple : Re :=
  seq (alt (seq multipleDataElements (chr ';')) (star true conditionedDataElementsSwitch))
    (alt multipleDataElements (star true conditionedDataElementsSwitch))

/-- `INTERNATIONAL_BDEW_TUPLE (";" INTERNATIONAL_BDEW_TUPLE)*` — tree_to_sgh.py:23 -/
def internationalBdewTupleChain : Re :=
  seq internationalBdewTuple (star true (seq (chr ';') internationalBdewTuple))

/-- `SEGMENT_KEY "[" INTERNATIONAL_BDEW_TUPLE_CHAIN "]"` — tree_to_sgh.py:22 -/
def segment : Re := seq segmentKey (seq (chr '[') (seq internationalBdewTupleChain (chr ']')))

/-- `SEGMENT_GROUP_KEY "[" OBLIG_MARK ";" OBLIG_MARK "]"` — tree_to_sgh.py:21 -/
def segmentGroupReference : Re :=
  seq segmentGroupKey (seq (chr '[') (seq obligMark (seq (chr ';') (seq obligMark (chr ']')))))

/-- `((SEGMENT_GROUP_KEY) ":"?)? SEGMENT ("," (SEGMENT|SEGMENT_GROUP_REFERENCE))*` — tree_to_sgh.py:20 -/
def segmentGroup : Re :=
  seq (opt (seq segmentGroupKey (opt (chr ':'))))
    (seq segment (star true (seq (chr ',') (alt segmentGroupReference segment))))

/-- `ROOT_NODE ":" SEGMENT_GROUP ("\n" SEGMENT_GROUP)*` — tree_to_sgh.py:19 -/
def segmentGroupChain : Re :=
  seq rootNode (seq (chr ':') (seq segmentGroup (star true (seq (chr '\n') segmentGroup))))

/-- `_parser.parse`: ignored characters are skipped, then the token is matched, then there must be nothing but ignored characters;
everything else is one of Lark's `UnexpectedInput` exceptions — tree_to_sgh.py:17-43, 60 -/
def larkParse (text : PyStr) : PyRes PyStr :=
  let behindWS := text.dropWhile isWS
  match segmentGroupChain.pyMatch behindWS with
  | some m => if m.rest.all isWS then .ok (behindWS.take (behindWS.length - m.rest.length)) else .error .other
  | none => .error .other

end TreeGrammar

/-- `read_tree` with the parser of this module — tree_to_sgh.py:46-61 -/
def readTreeFile (env : FileEnv) (tree : TreeArg) : FileProg PyStr := readTree env TreeGrammar.larkParse tree

end Verif
