import Verif.Model.CsvText
import Verif.Spec.Cli
/-!
# Specification vocabulary for the way from a CSV file to a MAUS
-/

namespace Verif

/-- a CSV file has been read and turned into a flat AHB: `FlatAhbCsvReader(path, pruefidentifikator, delimiter=delimiter).to_flat_ahb()`
returns this flat AHB; `guid` are the random numbers of the run -/
def FlatAhbOfCsv (guid : Nat → Fin (2 ^ 128)) (delimiter : Char) (content : Bytes) (pruefidentifikator : Option PyStr) (flat : FlatAhb) : Prop :=
  ∃ r, CsvReader.ofBytes guid delimiter content pruefidentifikator = .ok r ∧ r.toFlatAhb = .ok flat

/-- the input files of the command line tool: the flat AHB and the hierarchy have been stored with their schemas and `json.dump`, each in
any style, and the template is an XML file with this root -/
structure InputsStored (env : CliEnv) (fs : FsNode) (o : CliOptions) (flat : FlatAhb) (sgh : Sgh) (root : Xml) : Prop where
  flat : ∃ style : JsonStyle, ReadableAt env.files fs o.flatAhbPath (encodeUtf8 (jsonDumps style flat.dump))
  sgh : ∃ style : JsonStyle, ReadableAt env.files fs o.sghPath (encodeUtf8 (jsonDumps style sgh.dump))
  template : ∃ content, ReadableAt env.files fs o.templatePath content ∧ env.parseXml content = .ok root

end Verif
