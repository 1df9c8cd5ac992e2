import Verif.Model.BinEvents
import Verif.Model.Bintype
import Verif.Model.Charsets
import Verif.Model.Commands
import Verif.Model.Css
import Verif.Model.Dataio
import Verif.Model.DeclReader
import Verif.Model.Decls
import Verif.Model.Distdoc
import Verif.Model.DocInfo
import Verif.Model.Document
import Verif.Model.Filestructure
import Verif.Model.Filetime
import Verif.Model.Find
import Verif.Model.Format
import Verif.Model.FsStorage
import Verif.Model.Grouping
import Verif.Model.Html
import Verif.Model.Info
import Verif.Model.Json
import Verif.Model.Lengths
import Verif.Model.Listing
import Verif.Model.ModelJson
import Verif.Model.ModelParse
import Verif.Model.Msoleprops
import Verif.Model.OdtStyles
import Verif.Model.Package
import Verif.Model.PageSetup
import Verif.Model.Pages
import Verif.Model.ParaText
import Verif.Model.Passes
import Verif.Model.Pictures
import Verif.Model.Plaintext
import Verif.Model.Points
import Verif.Model.Py
import Verif.Model.Rawunz
import Verif.Model.Records
import Verif.Model.Shapes
import Verif.Model.Storage
import Verif.Model.StreamNames
import Verif.Model.Summary
import Verif.Model.Tables
import Verif.Model.TreeOp
import Verif.Model.Utf16
import Verif.Model.Utf8
import Verif.Model.Utils
import Verif.Model.Xml
import Verif.Model.XmlFormat
import Verif.Proofs.Align
import Verif.Proofs.AlignRecords
import Verif.Proofs.Ancestors
import Verif.Proofs.BinEvents
import Verif.Proofs.Bintype
import Verif.Proofs.Bytes
import Verif.Proofs.Commands
import Verif.Proofs.Conditions
import Verif.Proofs.Css
import Verif.Proofs.Dataio
import Verif.Proofs.DeclBytes
import Verif.Proofs.DeclContent
import Verif.Proofs.DeclModel
import Verif.Proofs.DeclReader
import Verif.Proofs.Decls
import Verif.Proofs.DeclsIndep
import Verif.Proofs.Decoration
import Verif.Proofs.Distdoc
import Verif.Proofs.DocAll
import Verif.Proofs.DocFail
import Verif.Proofs.DocGood
import Verif.Proofs.DocItems
import Verif.Proofs.DocParts
import Verif.Proofs.DocQuiet
import Verif.Proofs.DocRecords
import Verif.Proofs.DocShow
import Verif.Proofs.DocSummary
import Verif.Proofs.DocTree
import Verif.Proofs.DocXml
import Verif.Proofs.Enum
import Verif.Proofs.Escapes
import Verif.Proofs.EventNames
import Verif.Proofs.Events
import Verif.Proofs.FieldTree
import Verif.Proofs.Fields
import Verif.Proofs.Filestructure
import Verif.Proofs.Filetime
import Verif.Proofs.Find
import Verif.Proofs.Format
import Verif.Proofs.FsStorage
import Verif.Proofs.Grouping
import Verif.Proofs.Html
import Verif.Proofs.Info
import Verif.Proofs.InfoDoc
import Verif.Proofs.InfoFields
import Verif.Proofs.InfoRecords
import Verif.Proofs.Inline
import Verif.Proofs.Json
import Verif.Proofs.Layout
import Verif.Proofs.Lengths
import Verif.Proofs.Listing
import Verif.Proofs.Margins
import Verif.Proofs.ModelJson
import Verif.Proofs.ModelParse
import Verif.Proofs.Msoleprops
import Verif.Proofs.MsolepropsRead
import Verif.Proofs.OdtStyles
import Verif.Proofs.Ole
import Verif.Proofs.Package
import Verif.Proofs.PageRecords
import Verif.Proofs.PageSetup
import Verif.Proofs.Pages
import Verif.Proofs.PagesDoc
import Verif.Proofs.PaperDoc
import Verif.Proofs.ParaIds
import Verif.Proofs.ParaText
import Verif.Proofs.ParaTextRoundTrip
import Verif.Proofs.Pictures
import Verif.Proofs.PipelineA
import Verif.Proofs.PipelineB
import Verif.Proofs.PipelineC
import Verif.Proofs.PipelineD
import Verif.Proofs.PipelineE
import Verif.Proofs.PlainDoc
import Verif.Proofs.PlainOrder
import Verif.Proofs.PlainPlace
import Verif.Proofs.PlainSection
import Verif.Proofs.PlainXml
import Verif.Proofs.Points
import Verif.Proofs.Quiet
import Verif.Proofs.Rawunz
import Verif.Proofs.RecordEvents
import Verif.Proofs.Records
import Verif.Proofs.Restructure
import Verif.Proofs.Shapes
import Verif.Proofs.Shown
import Verif.Proofs.Sizes
import Verif.Proofs.Spacing
import Verif.Proofs.Storage
import Verif.Proofs.StreamLayout
import Verif.Proofs.StreamNames
import Verif.Proofs.Tables
import Verif.Proofs.TablesLayout
import Verif.Proofs.TablesPasses
import Verif.Proofs.TablesRows
import Verif.Proofs.Texts
import Verif.Proofs.Unpack
import Verif.Proofs.Utf16
import Verif.Proofs.Utf8
import Verif.Proofs.Utils
import Verif.Proofs.Xml
import Verif.Proofs.XmlDoc
import Verif.Proofs.XmlFormat
import Verif.Proofs.XmlModel
import Verif.Proofs.XmlParse
import Verif.Proofs.XmlRecord
import Verif.Proofs.XmlShow
import Verif.Proofs.XmlText
import Verif.Props.Align
import Verif.Props.BinEvents
import Verif.Props.Bintype
import Verif.Props.Charsets
import Verif.Props.Commands
import Verif.Props.Css
import Verif.Props.Dataio
import Verif.Props.DeclReader
import Verif.Props.DeclSource
import Verif.Props.Decoration
import Verif.Props.Distdoc
import Verif.Props.DocInfo
import Verif.Props.Document
import Verif.Props.Escapes
import Verif.Props.EventNames
import Verif.Props.FieldTree
import Verif.Props.Filestructure
import Verif.Props.Filetime
import Verif.Props.Find
import Verif.Props.Format
import Verif.Props.FsStorage
import Verif.Props.Grouping
import Verif.Props.Html
import Verif.Props.Info
import Verif.Props.InfoRecords
import Verif.Props.Json
import Verif.Props.JsonText
import Verif.Props.Layout
import Verif.Props.Listing
import Verif.Props.Margins
import Verif.Props.ModelJson
import Verif.Props.ModelParse
import Verif.Props.Msoleprops
import Verif.Props.OdtStyles
import Verif.Props.Package
import Verif.Props.PageSetup
import Verif.Props.Pages
import Verif.Props.PaperRecords
import Verif.Props.ParaText
import Verif.Props.Passes
import Verif.Props.Pictures
import Verif.Props.Pipeline
import Verif.Props.Plaintext
import Verif.Props.Rawunz
import Verif.Props.Records
import Verif.Props.Shapes
import Verif.Props.Sizes
import Verif.Props.Spacing
import Verif.Props.Storage
import Verif.Props.StreamLayout
import Verif.Props.StreamNames
import Verif.Props.Tables
import Verif.Props.Texts
import Verif.Props.TreeOp
import Verif.Props.Utf8
import Verif.Props.Utils
import Verif.Props.Xml
import Verif.Props.XmlRecord
import Verif.Spec.Align
import Verif.Spec.BinEvents
import Verif.Spec.Bintype
import Verif.Spec.Commands
import Verif.Spec.Conditions
import Verif.Spec.Css
import Verif.Spec.Dataio
import Verif.Spec.DeclBytes
import Verif.Spec.DeclReader
import Verif.Spec.Decls
import Verif.Spec.Decoration
import Verif.Spec.Distdoc
import Verif.Spec.Document
import Verif.Spec.Escapes
import Verif.Spec.EventNames
import Verif.Spec.Events
import Verif.Spec.FieldTree
import Verif.Spec.Fields
import Verif.Spec.Filestructure
import Verif.Spec.Filetime
import Verif.Spec.Find
import Verif.Spec.Format
import Verif.Spec.FsStorage
import Verif.Spec.Grouping
import Verif.Spec.Html
import Verif.Spec.Info
import Verif.Spec.InfoRecords
import Verif.Spec.Inline
import Verif.Spec.Json
import Verif.Spec.Layout
import Verif.Spec.LayoutTable
import Verif.Spec.Lengths
import Verif.Spec.Listing
import Verif.Spec.Margins
import Verif.Spec.ModelJson
import Verif.Spec.ModelParse
import Verif.Spec.Msoleprops
import Verif.Spec.OdtStyles
import Verif.Spec.Package
import Verif.Spec.PageSetup
import Verif.Spec.Pages
import Verif.Spec.ParaText
import Verif.Spec.Passes
import Verif.Spec.Pictures
import Verif.Spec.Pipeline
import Verif.Spec.Plaintext
import Verif.Spec.PyDecl
import Verif.Spec.PySource
import Verif.Spec.Rawunz
import Verif.Spec.Records
import Verif.Spec.Shapes
import Verif.Spec.Shown
import Verif.Spec.Sizes
import Verif.Spec.Spacing
import Verif.Spec.Storage
import Verif.Spec.StreamLayout
import Verif.Spec.StreamNames
import Verif.Spec.Tables
import Verif.Spec.Texts
import Verif.Spec.Utf16
import Verif.Spec.Utf8
import Verif.Spec.Utils
import Verif.Spec.Xml
import Verif.Spec.XmlFormat
