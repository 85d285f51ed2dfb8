import Verif.Model.LocationXml
import Verif.Model.MigXml
import Verif.Py.XmlText
import Verif.Py.XmlNs
import Verif.Py.Files
import Verif.Py.Regex
/-!
# Reading XML texts: `maus.reader.ahb_location_xml`, `maus.reader.mig_xml_reader`

Expat's and lxml's errors are `Exc.other`.
-/

namespace Verif

/-- `xmltodict.parse(xml_str)` up to its result, for the text of a document (serves ahb_location_xml.py:116, 128) -/
def readXml (text : PyStr) : PyRes Xml :=
  match parseXml text with
  | none => .error .other
  | some x => .ok x

/-- `etree.fromstring(init_param)`, `etree.parse(...)` for the text of a document: as before, and all names are expanded. `validUri`
says which URIs libxml2 accepts as names of namespaces (serves mig_xml_reader.py:56, 59) -/
def readXmlLxml (validUri : PyStr → Bool) (text : PyStr) : PyRes Xml := do
  let x ← readXml text
  match resolveNs validUri [] x with
  | none => .error .other
  | some y => .ok y

/-- `etree.parse(path).getroot()` as a function of the content of the file, for documents in UTF-8
— /repo/src/maus/reader/mig_xml_reader.py:59-60 -/
def readXmlBytes (validUri : PyStr → Bool) (content : Bytes) : PyRes Xml :=
  match decodeUtf8 content with
  | .error _ => .error .other
  | .ok text => readXmlLxml validUri text

/-- `from_xml_element` for a string — ahb_location_xml.py:106-117 -/
def fromXmlText (text : PyStr) : PyRes AhbLocation := do
  let x ← readXml text
  fromXmlElement x

/-- `from_xml_elements` for a string — ahb_location_xml.py:120-138 -/
def fromXmlTexts (text : PyStr) : PyRes (List AhbLocation) := do
  let x ← readXml text
  fromXmlElements x

/-- `MigXmlReader`: the roots of the original and of the sanitised tree — mig_xml_reader.py:41-70 -/
structure MigXmlReader where
  original : Xml
  sanitised : Xml

/-- `MigXmlReader.__init__` once the text of the document is known — mig_xml_reader.py:53-70; for the kinds of arguments see
`MigXmlReader.init`. Not modelled: a file is decoded as its XML declaration says. -/
def MigXmlReader.new (validUri : PyStr → Bool) (text : PyStr) : PyRes MigXmlReader := do
  let original ← readXmlLxml validUri text
  let sanitised ← readXmlLxml validUri text
  pure { original := original, sanitised := makeTreeNamesComparable sanitised }

/-- lxml's `_hasEncodingDeclaration`: `^(<\?xml[^>]+)\s+encoding\s*=\s*["\'][^"\']*["\'](\s*\?>|)`
(serves mig_xml_reader.py:56-57) -/
def encodingDeclarationRe : Re :=
  .seq .bol (.seq (.grp 1 (.seq (.str py!"<?xml") (.plus (.cls fun c => c != '>')))) (.seq (.plus (.cls isSpace))
    (.seq (.str py!"encoding") (.seq (.star true (.cls isSpace)) (.seq (.chr '=') (.seq (.star true (.cls isSpace))
      (.seq (.cls fun c => c == '"' || c == '\'') (.seq (.star true (.cls fun c => c != '"' && c != '\''))
        (.seq (.cls fun c => c == '"' || c == '\'') (.grp 2 (.alt (.seq (.star true (.cls isSpace)) (.str py!"?>")) .eps)))))))))))

/-- the argument of `MigXmlReader`: a `str`, a `Path` to a file with the given content (in UTF-8), or anything else
— mig_xml_reader.py:53-62 -/
inductive MigInit where
  | text (s : PyStr)
  | file (content : Bytes)
  | other

/-- `MigXmlReader.__init__`; `etree.fromstring` raises a `ValueError` for a `str` with an encoding declaration
— mig_xml_reader.py:53-70 -/
def MigXmlReader.init (validUri : PyStr → Bool) : MigInit → PyRes MigXmlReader
  | .text s => if (encodingDeclarationRe.pyMatch s).isSome then .error .valueError else MigXmlReader.new validUri s
  | .file content =>
    match decodeUtf8 content with
    | .error _ => .error .other
    | .ok s => MigXmlReader.new validUri s
  | .other => .error .valueError

/-- `MigXmlReader.get_format_name` — mig_xml_reader.py:87-91 -/
def MigXmlReader.formatName (r : MigXmlReader) : PyStr := r.original.tag

/-- `check_file_can_be_parsed_as_mig_xml` for a file with the given text; `formats` are the values of `EdifactFormat`
— mig_xml_reader.py:30-37 -/
def checkMigText (validUri : PyStr → Bool) (formats : List PyStr) (text : PyStr) : PyRes Unit := do
  let reader ← MigXmlReader.new validUri text
  if reader.formatName ∈ formats then .ok () else .error .valueError

/-- `MigXmlReader(path).get_edifact_stack(location)` for a file with the given text — mig_xml_reader.py:53-70, 199-204 -/
def stackFromText (validUri : PyStr → Bool) (text : PyStr) (location : AhbLocation) : PyRes EdifactStack := do
  let reader ← MigXmlReader.new validUri text
  getEdifactStack reader.original location

end Verif
