import Verif.Props.Xml
import Verif.Props.Package
import Verif.Props.Rels
import Verif.Props.Report
import Verif.Props.Relationships
import Verif.Props.TableMerge
import Verif.Props.Sections
import Verif.Props.Comments
import Verif.Props.BuilderParts
import Verif.Props.BuilderTargets
import Verif.Props.SlideText
import Verif.Props.Editor
import Verif.Props.Base64
import Verif.Props.Escapers
import Verif.Props.Color
import Verif.Props.Minify
import Verif.Props.Compress
import Verif.Props.Files
import Verif.Props.Repair
import Verif.Props.RepairRels
import Verif.Props.RepairLines
import Verif.Props.TextConv
import Verif.Props.Entities
import Verif.Props.Markdown
import Verif.Props.Tables
import Verif.Props.Web
import Verif.Props.Parts
import Verif.Props.Charts
import Verif.Props.HtmlSafe
import Verif.Props.BulletFormat
import Verif.Props.XmlElement
import Verif.Props.Reader
import Verif.Props.CoreProps
import Verif.Props.PartXml
import Verif.Props.Place
import Verif.Props.Image
import Verif.Props.Flowchart
import Verif.Props.FlowSource
import Verif.Props.FlowPlace
import Verif.Props.MdImport
import Verif.Model.Validate
import Verif.Model.PackageText
import Verif.Lemmas.Validate
import Verif.Props.Validate
import Verif.Props.ValidatePres
import Verif.Props.ValidateAll
import Verif.Props.Drawing
import Verif.Model.Settings
import Verif.Model.Theme
import Verif.Spec.Settings
import Verif.Spec.Reachable
import Verif.Lemmas.Theme
import Verif.Lemmas.Settings
import Verif.Lemmas.Fonts
import Verif.Lemmas.Ink
import Verif.Props.Theme
import Verif.Props.Settings
import Verif.Props.Fonts
import Verif.Props.Ink
import Verif.Props.Signature
import Verif.Props.PartOrder
import Verif.Props.Reachable
import Verif.Model.Pdf
import Verif.Spec.Pdf
import Verif.Lemmas.Pdf
import Verif.Lemmas.PdfSlide
import Verif.Props.Pdf
import Verif.Model.External
import Verif.Props.External
import Verif.Model.Import
import Verif.Props.Import
import Verif.Model.Handlers
import Verif.Props.Handlers
import Verif.Model.ReportJson
import Verif.Spec.Json
import Verif.Props.ReportJson
import Verif.Model.Mermaid
import Verif.Props.MermaidSeq
import Verif.Props.MermaidStates
import Verif.Props.MermaidEntities
import Verif.Props.MermaidSections
import Verif.Props.MermaidOthers
import Verif.Props.HtmlExport
import Verif.Props.Templates
import Verif.Props.TablePart
import Verif.Props.PartDocs
import Verif.Props.Inline
import Verif.Props.Gradients
import Verif.Props.Media
import Verif.Props.TextFrame
import Verif.Props.ImageBuilder
import Verif.Props.Units
import Verif.Props.ColorMath
import Verif.Props.Autofit
import Verif.Props.Quick
import Verif.Props.Layouts
import Verif.Props.CommentXml
import Verif.Props.PartStates
import Verif.Props.TitleLook
import Verif.Props.Chains
import Verif.Props.HtmlStyled
import Verif.Model.WebParser
import Verif.Spec.WebParser
import Verif.Props.WebParser
import Verif.Props.WebPage
import Verif.Props.WebSound
import Verif.Props.WebLost
import Verif.Props.WebTitle
import Verif.Props.WholeSources
import Verif.Props.WholeEdit
import Verif.Props.ImportShapes
import Verif.Props.WholeCompress
import Verif.Props.WholeRepair
import Verif.Props.ImageExport
import Verif.Props.SizeReport
import Verif.Props.FileStore
import Verif.Props.EditRepair
import Verif.Props.RepairTwice
import Verif.Model.TemplateDeck
import Verif.Props.TemplateDeck
import Verif.Model.StaticParts
import Verif.Props.StaticParts
import Verif.Model.LazySource
import Verif.Props.LazySource
import Verif.Model.Info
import Verif.Props.Info
import Verif.Props.WholeEditAny
import Verif.Props.AnyFile
import Verif.Props.WholeFonts
import Verif.Model.FullText
import Verif.Props.FullText
import Verif.Lemmas.ScanText
import Verif.Lemmas.ScanSlide
import Verif.Lemmas.ScanDraw
import Verif.Model.DebugCheck
import Verif.Lemmas.ScanPage
import Verif.Props.Accepted
import Verif.Props.RepairLost
import Verif.Model.ExportFile
import Verif.Props.ExportFile
import Verif.Props.MdAgain
import Verif.Props.Placeholders
import Verif.Model.ValidateCommand
import Verif.Props.ValidateCommand
import Verif.Model.HtmlScript
import Verif.Props.HtmlAgain
import Verif.Model.LinkedFiles
import Verif.Props.LinkedFiles
import Verif.Model.DiagramPlace
import Verif.Props.DiagramPlace
import Verif.Model.PdfText
import Verif.Props.PdfText
import Verif.Model.ChartBuild
import Verif.Props.ChartBuild
import Verif.Model.Palettes
import Verif.Props.Palettes
import Verif.Model.CliRun
import Verif.Props.CliRun
import Verif.Model.WebOptions
import Verif.Props.WebOptions
import Verif.Model.CliArgs
import Verif.Props.CliArgs
import Verif.Model.CliSession
import Verif.Props.CliSession
import Verif.Model.SettingsBuild
import Verif.Props.SettingsBuild
import Verif.Model.MediaBuild
import Verif.Props.MediaBuild
import Verif.Model.PresBuild
import Verif.Props.PresBuild
import Verif.Model.TableBuild
import Verif.Props.TableBuild
import Verif.Model.TextBuild
import Verif.Props.TextBuild
import Verif.Model.ValueCheck
import Verif.Props.ValueCheck
import Verif.Props.QuickShape
import Verif.Props.FullProps
import Verif.Model.SectionText
import Verif.Props.SectionText
import Verif.Props.TablesWide
