import Verif.Py.Dict
import Verif.Py.Exc
import Verif.Py.Num
import Verif.Py.NumLemmas
import Verif.Py.Regex
import Verif.Py.Sort
import Verif.Py.Str
import Verif.Py.StrLemmas
import Verif.Py.Time
import Verif.Py.Uni
import Verif.Model.AsType
import Verif.Model.Catalog
import Verif.Model.Charts
import Verif.Model.Cli
import Verif.Model.DiffPrint
import Verif.Model.Diffractometers
import Verif.Model.Example
import Verif.Model.Gallery
import Verif.Model.GalleryPage
import Verif.Model.GeoTable
import Verif.Model.H5
import Verif.Model.Handlers
import Verif.Model.Plot
import Verif.Model.PlotAgain
import Verif.Model.PluginLoad
import Verif.Model.Registry
import Verif.Model.Scanf
import Verif.Model.SpecFile
import Verif.Model.SpecplotMain
import Verif.Model.Utils
import Verif.Model.Writer
import Verif.Spec.Agree
import Verif.Spec.Alone
import Verif.Spec.Arrive
import Verif.Spec.Charts
import Verif.Spec.Cli
import Verif.Spec.Data
import Verif.Spec.Entry
import Verif.Spec.Example
import Verif.Spec.File
import Verif.Spec.Fits
import Verif.Spec.Gallery
import Verif.Spec.GalleryPage
import Verif.Spec.Geometry
import Verif.Spec.GeometryText
import Verif.Spec.H5
import Verif.Spec.Headers
import Verif.Spec.History
import Verif.Spec.LeftBehind
import Verif.Spec.Opens
import Verif.Spec.Plot
import Verif.Spec.Plotted
import Verif.Spec.PluginLoad
import Verif.Spec.Plugins
import Verif.Spec.Report
import Verif.Spec.Sample
import Verif.Spec.Save
import Verif.Spec.Saves
import Verif.Spec.Scan
import Verif.Spec.SetPoint
import Verif.Spec.Total
import Verif.Spec.Utils
import Verif.Spec.Uxml
import Verif.Lemmas.Continue
import Verif.Lemmas.Fits
import Verif.Lemmas.FitsGeo
import Verif.Lemmas.FitsPost
import Verif.Lemmas.Frames
import Verif.Lemmas.H5
import Verif.Lemmas.H5Exact
import Verif.Lemmas.Header
import Verif.Lemmas.Interp
import Verif.Lemmas.Latest
import Verif.Lemmas.Live
import Verif.Lemmas.LiveAll
import Verif.Lemmas.LiveData
import Verif.Lemmas.LiveFile
import Verif.Lemmas.LiveGeo
import Verif.Lemmas.LiveMore
import Verif.Lemmas.LiveRun
import Verif.Lemmas.LiveSave
import Verif.Lemmas.LiveUxml
import Verif.Lemmas.LiveWriters
import Verif.Lemmas.Opens
import Verif.Lemmas.Par
import Verif.Lemmas.Post
import Verif.Lemmas.Refresh
import Verif.Lemmas.Regs
import Verif.Lemmas.Safe
import Verif.Lemmas.Save
import Verif.Lemmas.SaveCame
import Verif.Lemmas.SaveLoop
import Verif.Lemmas.SaveRead
import Verif.Lemmas.Saves
import Verif.Lemmas.Section
import Verif.Lemmas.Slot
import Verif.Lemmas.SlotGeo
import Verif.Lemmas.SlotPreset
import Verif.Lemmas.SlotRun
import Verif.Lemmas.SlotWriters
import Verif.Lemmas.SpecFile
import Verif.Lemmas.Stored
import Verif.Lemmas.Tree
import Verif.Lemmas.Uxml
import Verif.Lemmas.UxmlLinks
import Verif.Lemmas.View
import Verif.Lemmas.WriterConf
import Verif.Lemmas.WriterPar
import Verif.Lemmas.Writers
import Verif.Lemmas.Zone
import Verif.Lemmas.ZoneFlat
import Verif.Lemmas.ZoneGeo
import Verif.Lemmas.ZoneOwn
import Verif.Lemmas.ZonePos
import Verif.Lemmas.ZonePosTree
import Verif.Lemmas.ZoneRun
import Verif.Lemmas.ZoneSample
import Verif.Props.Agree
import Verif.Props.AgreeDemo
import Verif.Props.Alone
import Verif.Props.Arrive
import Verif.Props.ArriveDemo
import Verif.Props.ArriveGeo
import Verif.Props.ArriveGeoDemo
import Verif.Props.ArriveHeader
import Verif.Props.ArriveMore
import Verif.Props.ArriveMoreDemo
import Verif.Props.ArrivePlug
import Verif.Props.ArrivePlugDemo
import Verif.Props.ArriveTemp
import Verif.Props.AsType
import Verif.Props.Catalog
import Verif.Props.Charts
import Verif.Props.Cli
import Verif.Props.Columns
import Verif.Props.Comments
import Verif.Props.Data
import Verif.Props.Determined
import Verif.Props.Diffractometers
import Verif.Props.Entry
import Verif.Props.EntryDemo
import Verif.Props.EntryFlat
import Verif.Props.EntryGeo
import Verif.Props.EntryLines
import Verif.Props.EntryOnly
import Verif.Props.EntryPos
import Verif.Props.EntryPosDemo
import Verif.Props.EntryPreset
import Verif.Props.EntrySample
import Verif.Props.EntrySampleDemo
import Verif.Props.EntryTables
import Verif.Props.EntryXpcs
import Verif.Props.Example
import Verif.Props.Extract
import Verif.Props.ExtractHead
import Verif.Props.Eznx
import Verif.Props.FileAttrs
import Verif.Props.Fits
import Verif.Props.FitsDemo
import Verif.Props.FloatRef
import Verif.Props.Gallery
import Verif.Props.GalleryCrash
import Verif.Props.GalleryDemo
import Verif.Props.GalleryMain
import Verif.Props.GalleryMainDemo
import Verif.Props.GalleryPage
import Verif.Props.GalleryRun
import Verif.Props.GeoDesc
import Verif.Props.GeoText
import Verif.Props.Grown
import Verif.Props.History
import Verif.Props.HistoryDemo
import Verif.Props.Iso
import Verif.Props.Last
import Verif.Props.Lazy
import Verif.Props.LeftBehind
import Verif.Props.LineKind
import Verif.Props.Lines
import Verif.Props.McaInfo
import Verif.Props.Mesh
import Verif.Props.MeshPlot
import Verif.Props.NoData
import Verif.Props.Opens
import Verif.Props.OpensDemo
import Verif.Props.OpensRead
import Verif.Props.Plot
import Verif.Props.PlotAgain
import Verif.Props.PlotMesh
import Verif.Props.PlotMore
import Verif.Props.Plotted
import Verif.Props.PluginLoad
import Verif.Props.Read
import Verif.Props.Refresh
import Verif.Props.Registry
import Verif.Props.Report
import Verif.Props.ReportDemo
import Verif.Props.Save
import Verif.Props.Saves
import Verif.Props.SavesDemo
import Verif.Props.SavesMeshDemo
import Verif.Props.ScanList
import Verif.Props.Scanf
import Verif.Props.ScanfTotal
import Verif.Props.Sections
import Verif.Props.Select
import Verif.Props.Slices
import Verif.Props.SpecplotMain
import Verif.Props.Stay
import Verif.Props.Tables
import Verif.Props.Total
import Verif.Props.Untouched
import Verif.Props.Utils
import Verif.Props.Uxml
import Verif.Props.UxmlDemo
import Verif.Props.Xref
