import Verif.Conformance.Files
import Verif.Conformance.Rows
import Verif.Conformance.Small
import Verif.Lemmas.Again
import Verif.Lemmas.Alloc
import Verif.Lemmas.Anlz
import Verif.Lemmas.AnlzAt
import Verif.Lemmas.AnlzBase
import Verif.Lemmas.AnlzContent
import Verif.Lemmas.AnlzContentAt
import Verif.Lemmas.AnlzFile
import Verif.Lemmas.AnlzFileAt
import Verif.Lemmas.AnlzLocal
import Verif.Lemmas.AnlzPanic
import Verif.Lemmas.AnlzSection
import Verif.Lemmas.Begun
import Verif.Lemmas.Cli
import Verif.Lemmas.Crc
import Verif.Lemmas.DString
import Verif.Lemmas.Database
import Verif.Lemmas.Device
import Verif.Lemmas.Dump
import Verif.Lemmas.Edit
import Verif.Lemmas.EditRoom
import Verif.Lemmas.Flush
import Verif.Lemmas.Header
import Verif.Lemmas.Io
import Verif.Lemmas.Layout
import Verif.Lemmas.ListExport
import Verif.Lemmas.Listing
import Verif.Lemmas.Merge
import Verif.Lemmas.NoPanic
import Verif.Lemmas.OffsetArray
import Verif.Lemmas.Page
import Verif.Lemmas.RowAt
import Verif.Lemmas.RowBase
import Verif.Lemmas.RowGroup
import Verif.Lemmas.RowIter
import Verif.Lemmas.Rows
import Verif.Lemmas.Setting
import Verif.Lemmas.SettingData
import Verif.Lemmas.SettingText
import Verif.Lemmas.Table
import Verif.Lemmas.Text
import Verif.Lemmas.Truncate
import Verif.Lemmas.TruncateAnlz
import Verif.Lemmas.TruncatePdb
import Verif.Lemmas.Wrap
import Verif.Lemmas.WrapAnlz
import Verif.Lemmas.WrapAnlzFile
import Verif.Lemmas.WrapFlush
import Verif.Lemmas.WrapHeap
import Verif.Lemmas.WrapRewrite
import Verif.Lemmas.WrapRows
import Verif.Lemmas.WrapTable
import Verif.Lemmas.WrapTool
import Verif.Lemmas.Xml
import Verif.Lemmas.XmlDoc
import Verif.Lemmas.Xor
import Verif.Model.Anlz
import Verif.Model.AnlzFile
import Verif.Model.Begun
import Verif.Model.Bitfields
import Verif.Model.Cli
import Verif.Model.Compare
import Verif.Model.DString
import Verif.Model.Database
import Verif.Model.Device
import Verif.Model.Dump
import Verif.Model.Edit
import Verif.Model.Header
import Verif.Model.Io
import Verif.Model.Listing
import Verif.Model.Main
import Verif.Model.OffsetArray
import Verif.Model.Page
import Verif.Model.Path
import Verif.Model.Rows
import Verif.Model.Setting
import Verif.Model.SettingData
import Verif.Model.SettingOptions
import Verif.Model.SettingText
import Verif.Model.Text
import Verif.Model.Util
import Verif.Model.Wrap
import Verif.Model.WrapAnlz
import Verif.Model.WrapAnlzFile
import Verif.Model.WrapTool
import Verif.Model.Xml
import Verif.Model.XmlDoc
import Verif.Model.Xor
import Verif.Props.Again
import Verif.Props.Alone
import Verif.Props.Anlz
import Verif.Props.AnlzAt
import Verif.Props.AnlzEdited
import Verif.Props.AnlzExact
import Verif.Props.AnlzLayout
import Verif.Props.AnlzPanic
import Verif.Props.AnlzPanicFull
import Verif.Props.AnlzRewrite
import Verif.Props.AnlzRewriteWrap
import Verif.Props.AnlzSections
import Verif.Props.AnlzSong
import Verif.Props.Cli
import Verif.Props.CliFile
import Verif.Props.Compare
import Verif.Props.Crash
import Verif.Props.DString
import Verif.Props.Detect
import Verif.Props.Device
import Verif.Props.Dump
import Verif.Props.Edit
import Verif.Props.EditExample
import Verif.Props.Endless
import Verif.Props.ExportPath
import Verif.Props.ExportPlaces
import Verif.Props.FailedFlush
import Verif.Props.FailedPage
import Verif.Props.Flush
import Verif.Props.Header
import Verif.Props.HeaderEdit
import Verif.Props.Insert
import Verif.Props.Isolation
import Verif.Props.IterPages
import Verif.Props.Kind
import Verif.Props.Layout
import Verif.Props.Lines
import Verif.Props.ListExport
import Verif.Props.Listing
import Verif.Props.ListingFile
import Verif.Props.Main
import Verif.Props.OffsetArray
import Verif.Props.OnlyRead
import Verif.Props.Page
import Verif.Props.PageAt
import Verif.Props.PageExact
import Verif.Props.PageIter
import Verif.Props.PageLayout
import Verif.Props.PageRewrite
import Verif.Props.PathNames
import Verif.Props.RowAt
import Verif.Props.RowIter
import Verif.Props.RowLayout
import Verif.Props.RowLayoutExample
import Verif.Props.RowPanic
import Verif.Props.RowUse
import Verif.Props.Rows
import Verif.Props.Setting
import Verif.Props.SettingRewrite
import Verif.Props.SettingText
import Verif.Props.StringEq
import Verif.Props.StringExact
import Verif.Props.Table
import Verif.Props.TablePanic
import Verif.Props.TextAt
import Verif.Props.Truncate
import Verif.Props.Utf16
import Verif.Props.Wrap
import Verif.Props.WrapFlush
import Verif.Props.WrapRewrite
import Verif.Props.WrapTable
import Verif.Props.WrapTool
import Verif.Props.Xml
import Verif.Props.XmlDoc
import Verif.Props.Xor
import Verif.Props.XorSplit
import Verif.Spec.Again
import Verif.Spec.Anlz
import Verif.Spec.AnlzAt
import Verif.Spec.AnlzEdited
import Verif.Spec.AnlzFile
import Verif.Spec.AnlzPanic
import Verif.Spec.AnlzPanicLong
import Verif.Spec.Basic
import Verif.Spec.Cli
import Verif.Spec.Compare
import Verif.Spec.Crc
import Verif.Spec.DString
import Verif.Spec.Database
import Verif.Spec.Detect
import Verif.Spec.Device
import Verif.Spec.Dump
import Verif.Spec.Edit
import Verif.Spec.Endless
import Verif.Spec.ExportPath
import Verif.Spec.ExportPlaces
import Verif.Spec.FailedFlush
import Verif.Spec.Header
import Verif.Spec.Isolation
import Verif.Spec.Kind
import Verif.Spec.Layout
import Verif.Spec.Lines
import Verif.Spec.ListExport
import Verif.Spec.Listing
import Verif.Spec.Main
import Verif.Spec.OffsetArray
import Verif.Spec.OnlyRead
import Verif.Spec.Page
import Verif.Spec.PageAt
import Verif.Spec.PathNames
import Verif.Spec.RowAt
import Verif.Spec.RowPanic
import Verif.Spec.RowUse
import Verif.Spec.Rows
import Verif.Spec.Setting
import Verif.Spec.SettingRewrite
import Verif.Spec.SettingText
import Verif.Spec.StringEq
import Verif.Spec.Table
import Verif.Spec.TextAt
import Verif.Spec.Truncate
import Verif.Spec.Utf16
import Verif.Spec.WrapAnlz
import Verif.Spec.WrapFlush
import Verif.Spec.WrapTable
import Verif.Spec.WrapTool
import Verif.Spec.Xml
import Verif.Spec.XmlDoc
import Verif.Spec.Xor
