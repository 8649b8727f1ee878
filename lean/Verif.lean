import Verif.Py
import Verif.Float64
import Verif.Codec
import Verif.Mesh
import Verif.Spec
import Verif.Sample
import Verif.CodecLemmas
import Verif.FloatLemmas
import Verif.FloatCodec
import Verif.FloatValue
import Verif.MeshLemmas
import Verif.MapLemmas
import Verif.FormatLemmas
import Verif.QuietLemmas
import Verif.Layout
import Verif.LayoutLemmas
import Verif.StringLemmas
import Verif.Props.Format
import Verif.Props.Layout
import Verif.Props.Floats
import Verif.Edit
import Verif.EditSpec
import Verif.EditLemmas
import Verif.TranslateLemmas
import Verif.TravLemmas
import Verif.Exact
import Verif.RotateLemmas
import Verif.RotationSpec
import Verif.Props.Translate
import Verif.Props.Rotate
import Verif.ReorderLemmas
import Verif.MergeLemmas
import Verif.Props.Reorder
import Verif.Props.Merge
import Verif.BoundsLemmas
import Verif.Props.Bounds
import Verif.Object
import Verif.ObjectSpec
import Verif.ObjectLemmas
import Verif.Props.Object
import Verif.Equal
import Verif.EqualSpec
import Verif.EqualLemmas
import Verif.Props.Equal
import Verif.HistorySpec
import Verif.HistoryLemmas
import Verif.Props.History
import Verif.ColMesh
import Verif.ColSpec
import Verif.ColSample
import Verif.ColLemmas
import Verif.Props.ColFormat
import Verif.ColEditSpec
import Verif.ColEditLemmas
import Verif.Props.ColEdit
import Verif.ColEqualSpec
import Verif.ColEqualLemmas
import Verif.Props.ColEqual
import Verif.FloatSpec
import Verif.FloatArith
import Verif.Props.FloatEdit
import Verif.VecOps
import Verif.Props.VecOps
import Verif.AlgebraLemmas
import Verif.Props.Algebra
import Verif.OldMesh
import Verif.OldSpec
import Verif.OldLemmas
import Verif.OldSaveLemmas
import Verif.Props.OldFormat
import Verif.OldEdit
import Verif.OldEditSpec
import Verif.OldEditLemmas
import Verif.Props.OldEdit
import Verif.OldMergeLemmas
import Verif.Props.OldMerge
import Verif.Props.OldTransform
import Verif.Props.OldRotate
import Verif.Props.OldScripts
import Verif.Props.OldHistory
import Verif.Props.OldBox
import Verif.Props.OldEqual
import Verif.Props.OldSample
import Verif.Props.Session
import Verif.Props.OldMod
import Verif.Props.OldSettings
import Verif.Props.Readme
import Verif.Props.BoundsAlgebra
import Verif.Props.OldPrograms
import Verif.Props.RepoTests
import Verif.Props.MergeOutcome
import Verif.Props.OtherKind
import Verif.Props.RotError
import Verif.Props.SaveBetween
import Verif.Props.ColPrograms
import Verif.Props.RotSketch
import Verif.Props.OldTests
import Verif.Props.OldJoin
import Verif.Props.OldStages
import Verif.Props.Shared
import Verif.Props.ReadTests
import Verif.Props.RepoDetect
import Verif.Props.Nums
import Verif.Props.RepoBlind
import Verif.Props.SaveBounds
import Verif.Props.UpdateFail
import Verif.Props.Drift
import Verif.Props.LoadFail
import Verif.Props.EditFail
import Verif.Props.ReorderFail
import Verif.Props.FailedExport
import Verif.Props.Frame
import Verif.Props.Raise
import Verif.Props.Text
import Verif.Props.Cost
import Verif.Props.ColFailed
import Verif.Props.Narrow
import Verif.Props.Size
import Verif.Props.OldFailed
import Verif.Props.Turn
import Verif.Props.OldWings
import Verif.Props.OldShow
import Verif.Props.Chain
import Verif.Props.OldSmp
import Verif.Props.Bytes
import Verif.Props.OldWriteTests
import Verif.Props.OldGenTests
import Verif.Props.OldEditTests
import Verif.Props.Cut
import Verif.Props.Windows
import Verif.Props.ColTests
import Verif.Props.ColFail
import Verif.Props.OldFail
import Verif.Props.ColSize
import Verif.Props.OldReadTests
import Verif.Props.OldNums
import Verif.Props.ColChain
import Verif.Props.Twin
import Verif.Props.OldSize
import Verif.Props.OldDrift
import Verif.Props.OldChain
import Verif.Props.OldBytes
import Verif.Props.Free
import Verif.Props.ColFree
import Verif.Props.WinDir
import Verif.Props.ColBytes
import Verif.Props.Align
import Verif.Props.MovedBounds
import Verif.Props.Order
import Verif.Props.OldOrderAxis
import Verif.Props.Rigid
import Verif.Props.Undo
import Verif.Props.Hand
import Verif.Props.BoundsDrift
import Verif.Props.Centre
import Verif.Props.Recentre
import Verif.Props.Quarter
import Verif.Props.Spin
import Verif.Props.Half
import Verif.Props.Snap
import Verif.Props.Clean
import Verif.Props.CleanCol
import Verif.Props.CleanOld
