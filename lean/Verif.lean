import Verif.Model.Py
import Verif.Model.Pvl
import Verif.Lemmas.Str
import Verif.Spec.Pvl
import Verif.Lemmas.Pvl
import Verif.Props.Pvl
import Verif.Model.MultiDict
import Verif.Lemmas.MultiDict
import Verif.Lemmas.Rename
import Verif.Props.MultiDict
import Verif.Model.Literal
import Verif.Spec.Literal
import Verif.Lemmas.Literal
import Verif.Props.Literal
import Verif.Model.Trim
import Verif.Spec.Trim
import Verif.Lemmas.Trim
import Verif.Props.Trim
import Verif.Model.LineEnd
import Verif.Spec.LineEnd
import Verif.Props.LineEnd
import Verif.Model.Bits
import Verif.Spec.Bits
import Verif.Lemmas.Bits
import Verif.Props.Bits
import Verif.Model.Datatypes
import Verif.Spec.Datatypes
import Verif.Props.Datatypes
import Verif.Model.Image
import Verif.Spec.Image
import Verif.Lemmas.Image
import Verif.Props.Image
import Verif.Model.Locate
import Verif.Props.Locate
import Verif.Model.Format
import Verif.Spec.Format
import Verif.Props.Format
import Verif.Spec.Offsets
import Verif.Lemmas.Offsets
import Verif.Props.Offsets
import Verif.Model.Metadata
import Verif.Spec.Metadata
import Verif.Props.Metadata
import Verif.Model.Load
import Verif.Spec.Load
import Verif.Props.Load
import Verif.Model.Files
import Verif.Spec.Files
import Verif.Props.Files
import Verif.Model.Query
import Verif.Props.Query
import Verif.Model.Dispatch
import Verif.Spec.Dispatch
import Verif.Props.Dispatch
import Verif.Spec.Edit
import Verif.Props.Edit
import Verif.Model.Msl
import Verif.Spec.Msl
import Verif.Lemmas.Msl
import Verif.Props.Msl
import Verif.Model.Float
import Verif.Model.Ibm
import Verif.Spec.Ibm
import Verif.Props.Ibm
import Verif.Model.NumPy
import Verif.Model.Pds4Scale
import Verif.Spec.Pds4Scale
import Verif.Props.Pds4Scale
import Verif.Model.Scaling
import Verif.Spec.Scaling
import Verif.Props.Scaling
import Verif.Model.Browse
import Verif.Spec.Browse
import Verif.Props.Browse
import Verif.Model.MocTables
import Verif.Model.Moc
import Verif.Spec.Moc
import Verif.Lemmas.MocTree
import Verif.Props.Moc
import Verif.Model.MocDct
import Verif.Spec.MocDct
import Verif.Lemmas.MocDctTree
import Verif.Props.MocDct
import Verif.Lemmas.MocDctExact
import Verif.Lemmas.MocCosine
import Verif.Lemmas.MocDctFloat
import Verif.Props.MocPixels
import Verif.Model.Table
import Verif.Spec.Table
import Verif.Lemmas.TableNames
import Verif.Lemmas.TableCells
import Verif.Props.Table
import Verif.Props.TableScale
import Verif.Props.TableLimits
import Verif.Model.ImageFile
import Verif.Spec.ImageFile
import Verif.Props.ImageFile
import Verif.Model.Pds4Array
import Verif.Spec.Pds4Array
import Verif.Props.Pds4Array
import Verif.Model.Pds4Table
import Verif.Spec.Pds4Table
import Verif.Lemmas.Pds4Table
import Verif.Lemmas.Pds4Values
import Verif.Lemmas.Pds4Names
import Verif.Props.Pds4Table
import Verif.Props.Pds4TableLimits
import Verif.Model.Pds4Delim
import Verif.Spec.Pds4Delim
import Verif.Lemmas.Pds4Delim
import Verif.Props.Pds4Delim
import Verif.Props.Pds4DelimLimits
import Verif.Model.Objects
import Verif.Spec.Objects
import Verif.Props.Objects
import Verif.Props.ObjectsPds3
import Verif.Props.ObjectsFiles
import Verif.Model.AsciiTable
import Verif.Spec.AsciiTable
import Verif.Lemmas.AsciiTok
import Verif.Lemmas.AsciiText
import Verif.Props.AsciiTable
import Verif.Props.AsciiMore
import Verif.Props.AsciiExamples
import Verif.Model.Fits
import Verif.Spec.Fits
import Verif.Lemmas.Fits
import Verif.Props.Fits
import Verif.Props.FitsGet
import Verif.Props.FitsMore
import Verif.Props.FitsExamples
import Verif.Model.Open
import Verif.Spec.Open
import Verif.Props.Open
import Verif.Props.OpenExamples
import Verif.Model.AsciiArray
import Verif.Spec.AsciiArray
import Verif.Lemmas.AsciiArray
import Verif.Props.AsciiArray
import Verif.Props.AsciiArrayExamples
import Verif.Model.Uniform
import Verif.Spec.Uniform
import Verif.Props.Uniform
import Verif.Props.UniformExamples
import Verif.Model.Xml
import Verif.Spec.Xml
import Verif.Lemmas.Xml
import Verif.Lemmas.XmlNames
import Verif.Props.Xml
import Verif.Props.XmlExamples
import Verif.Model.BitTable
import Verif.Spec.BitTable
import Verif.Lemmas.BitTable
import Verif.Props.BitTable
import Verif.Props.BitTableExamples
import Verif.Model.PyLit
import Verif.Spec.Value
import Verif.Lemmas.Value
import Verif.Lemmas.ValueFail
import Verif.Lemmas.ValueSeq
import Verif.Props.Value
import Verif.Model.Label
import Verif.Spec.Label
import Verif.Lemmas.Utf8
import Verif.Props.Label
import Verif.Props.LabelExamples
import Verif.Model.Special
import Verif.Model.SpecialBlock
import Verif.Spec.Special
import Verif.Props.Special
import Verif.Props.SpecialBlock
import Verif.Props.SpecialRules
import Verif.Spec.SpecialPlaces
import Verif.Props.SpecialPlaces
import Verif.Props.TableReals
import Verif.Model.FitsTable
import Verif.Spec.FitsTable
import Verif.Props.FitsTable
import Verif.Model.PrefixTable
import Verif.Spec.PrefixTable
import Verif.Props.PrefixTable
import Verif.Props.ImageVax
import Verif.Model.Histogram
import Verif.Spec.Histogram
import Verif.Props.Histogram
import Verif.Model.ArrayRecords
import Verif.Spec.ArrayRecords
import Verif.Props.ArrayRecords
import Verif.Model.Product
import Verif.Spec.Product
import Verif.Props.Product
import Verif.Props.ProductExamples
import Verif.Model.ProductText
import Verif.Spec.ProductText
import Verif.Props.ProductText
import Verif.Props.ProductTextExamples
import Verif.Model.Read
import Verif.Spec.Read
import Verif.Props.Read
import Verif.Props.ReadExamples
import Verif.Model.Dump
import Verif.Spec.Dump
import Verif.Props.Dump
import Verif.Model.Pds4Read
import Verif.Spec.Pds4Read
import Verif.Props.Pds4Read
import Verif.Props.Pds4TableRead
import Verif.Props.Pds4DelimRead
import Verif.Props.Pds4HeaderRead
import Verif.Props.DesktopXml
import Verif.Props.McsTable
import Verif.Props.Prettify
import Verif.Props.Fuzzy
import Verif.Props.RowText
import Verif.Props.LooseText
import Verif.Props.MissionCsv
import Verif.Props.NamedText
import Verif.Props.HeadedText
import Verif.Props.CommentText
