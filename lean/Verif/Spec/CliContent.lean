import Verif.Spec.Cli
import Verif.Spec.Content
import Verif.Spec.JsonGrammar
import Verif.Spec.SchemaLoad
import Verif.Spec.XmlNs
/-!
# Specification vocabulary: what the input files of the command line tool contain
-/

namespace Verif

/-- there is a readable text file with a JSON document that describes this flat AHB -/
def HasFlatAhb (env : FileEnv) (fs : FsNode) (p : FsPath) (flat : FlatAhb) : Prop :=
  ∃ text j, TextAt env fs p text ∧ JsonDocument text j ∧ DescribesFlat j flat

/-- there is a readable text file with a JSON document that describes this segment group hierarchy -/
def HasHierarchy (env : FileEnv) (fs : FsNode) (p : FsPath) (sgh : Sgh) : Prop :=
  ∃ text j, TextAt env fs p text ∧ JsonDocument text j ∧ DescribesHierarchy j sgh

/-- there is a readable text file with a JSON document that describes this deep AHB -/
def HasDeepAhb (env : FileEnv) (fs : FsNode) (p : FsPath) (maus : DeepAhb) : Prop :=
  ∃ text j, TextAt env fs p text ∧ JsonDocument text j ∧ DescribesDeep j maus

/-- there is a readable text file with an XML document with this root element, its names expanded -/
def HasXml (validUri : PyStr → Bool) (env : FileEnv) (fs : FsNode) (p : FsPath) (root : Xml) : Prop :=
  ∃ text s, TextAt env fs p text ∧ Normalised text s ∧ NsDocument validUri s root

/-- two sets of input files have the same content: the flat AHBs differ at most in GUIDs, condition texts, segment ids and line indices,
the hierarchies are the same, and the MIGs differ at most in their texts and in the order of their attributes -/
def SameInputs (validUri : PyStr → Bool) (env : CliEnv) (fs fs' : FsNode) (o o' : CliOptions) : Prop :=
  ∃ flat flat' sgh mig mig',
    HasFlatAhb env.files fs o.flatAhbPath flat ∧ HasFlatAhb env.files fs' o'.flatAhbPath flat' ∧ flat.SameButNumbers flat' ∧
    HasHierarchy env.files fs o.sghPath sgh ∧ HasHierarchy env.files fs' o'.sghPath sgh ∧
    HasXml validUri env.files fs o.templatePath mig ∧ HasXml validUri env.files fs' o'.templatePath mig' ∧ SameMig mig mig'

end Verif
