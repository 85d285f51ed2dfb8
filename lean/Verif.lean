import Verif.Props.Sgh
import Verif.Props.Locations
import Verif.Props.Changes
import Verif.Props.DetermineLocations
import Verif.Props.Matching
import Verif.Props.Flat
import Verif.Props.Deep
import Verif.Props.Components
import Verif.Props.Schema
import Verif.Props.LocationXml
import Verif.Props.Csv
import Verif.Props.CsvText
import Verif.Props.MigXml
import Verif.Props.Meta
import Verif.Props.Transformation
import Verif.Props.TransformAll
import Verif.Props.JsonSchema
import Verif.Props.JsonText
import Verif.Props.Cli
import Verif.Props.Provider
import Verif.Props.XmlText
import Verif.Props.MigText
import Verif.Props.LocationRead
import Verif.Props.Tree
import Verif.Props.DeepRef
import Verif.Props.Content
import Verif.Props.Relabel
import Verif.Props.LocationPrefix
import Verif.Props.UnknownGroup
import Verif.Props.SchemaLoad
import Verif.Props.Requirements
import Verif.Props.CsvFile
import Verif.Props.JsonGrammar
import Verif.Props.CliContent
import Verif.Props.SchemaErrors
import Verif.Props.Constructors
import Verif.Props.DeepSuccess
import Verif.Props.DeepTree
import Verif.Props.LocationLayers
import Verif.Props.CliCrash
import Verif.Props.TransformStop
import Verif.Props.DeepEdit
import Verif.Props.DeepPrefix
import Verif.Props.DeepRepeat
import Verif.Props.CliParallel
import Verif.Props.Pipeline
import Verif.Props.TemplatePath
import Verif.Props.Placement
import Verif.Props.LocationRepr
import Verif.Props.GroupRequirements
import Verif.Props.FindExact
import Verif.Props.MigVirtual
import Verif.Props.MigInit
import Verif.Props.XmlNs
import Verif.Props.PublishedSchema
import Verif.Spec.DeepRaises
import Verif.Proofs.DeepRaises
import Verif.Props.DeepRaises
import Verif.Spec.LocationOutcome
import Verif.Proofs.LocationOutcome
import Verif.Props.LocationOutcome
import Verif.Spec.CliRaises
import Verif.Proofs.CliRaises
import Verif.Proofs.NoAbort
import Verif.Props.CliRaises
import Verif.Spec.MigExact
import Verif.Proofs.MigExact
import Verif.Props.MigExact
import Verif.Spec.JsonPathRead
import Verif.Proofs.JsonPathRead
import Verif.Props.JsonPathRead
import Verif.Spec.CsvRaises
import Verif.Proofs.CsvRaises
import Verif.Props.CsvRaises
import Verif.Model.FlatEdit
import Verif.Spec.FlatEdit
import Verif.Proofs.FlatEdit
import Verif.Props.FlatEdit
import Verif.Spec.CsvFlat
import Verif.Proofs.CsvFlat
import Verif.Props.CsvFlat
import Verif.Model.HashOrder
import Verif.Spec.HashOrder
import Verif.Proofs.HashOrder
import Verif.Props.HashOrder
import Verif.Model.DeepAssign
import Verif.Model.DeepHeap
import Verif.Model.ReadWhile
import Verif.Model.Session
import Verif.Model.WriteWhile
import Verif.Model.Surrogates
import Verif.Spec.DeepAssign
import Verif.Spec.DeepHeap
import Verif.Spec.ReadWhile
import Verif.Spec.Session
import Verif.Spec.WriteWhile
import Verif.Spec.CsvMaus
import Verif.Spec.Surrogates
import Verif.Spec.Texts
import Verif.Spec.RunHistory
import Verif.Spec.UniqueFields
import Verif.Proofs.DeepAssign
import Verif.Proofs.DeepHeap
import Verif.Proofs.ReadWhile
import Verif.Proofs.Session
import Verif.Proofs.WriteWhile
import Verif.Proofs.Surrogates
import Verif.Proofs.Texts
import Verif.Proofs.JsonTexts
import Verif.Props.DeepAssign
import Verif.Props.DeepHeap
import Verif.Props.ReadWhile
import Verif.Props.Session
import Verif.Props.WriteWhile
import Verif.Props.CsvMaus
import Verif.Props.Surrogates
import Verif.Props.Texts
import Verif.Props.RunHistory
import Verif.Props.UniqueFields
import Verif.Props.MigSeveral
import Verif.Props.CsvTwice
import Verif.Proofs.CsvPrefix
import Verif.Proofs.CsvCut
import Verif.Props.CsvPrefix
import Verif.Spec.CsvSections
import Verif.Proofs.CsvSections
import Verif.Props.CsvSections
import Verif.Spec.CsvColumns
import Verif.Proofs.CsvColumns
import Verif.Props.CsvColumns
import Verif.Proofs.CsvPruefi
import Verif.Props.CsvPruefi
import Verif.Spec.MigAttribs
import Verif.Proofs.MigAttribs
import Verif.Props.MigAttribs
import Verif.Spec.MigLocation
import Verif.Proofs.MigLocation
import Verif.Props.MigLocation
