import Verif.Model.Lib
import Verif.Model.Wad
import Verif.Props.Parser
import Verif.Props.RoundTrip
import Verif.Props.Diff
import Verif.Props.Layers
import Verif.Props.Geo
import Verif.Props.Surface
import Verif.Props.Entity
import Verif.Props.LayerNodes
import Verif.Props.Tree
import Verif.Props.TreeExamples
import Verif.Props.WadExamples
import Verif.Props.ForgeLoad
import Verif.Props.RealExamples
import Verif.Props.Degenerate
import Verif.Props.TangentExamples
import Verif.Props.Paths
import Verif.Props.Files
import Verif.Props.WatertightExamples
import Verif.Props.Hull
import Verif.Props.Rounding
import Verif.Props.RoundingExamples
import Verif.Props.ForgeEq
import Verif.Props.UnitTests
import Verif.Props.Centers
import Verif.Props.RoundingNormals
import Verif.Proofs.Tiling
import Verif.Props.Tiling
import Verif.Props.RoundingTree
import Verif.Proofs.Leaves
import Verif.Props.Drawn
import Verif.Props.DrawnExamples
import Verif.Props.Solid
import Verif.Spec.ForgeFile
import Verif.Props.ForgeFile
import Verif.Model.Output
import Verif.Spec.Output
import Verif.Props.Output
import Verif.Spec.Number
import Verif.Spec.Box
import Verif.Proofs.F32Grid
import Verif.Proofs.Box
import Verif.Props.Box
import Verif.Props.BoxWound
import Verif.Spec.Loads
import Verif.Spec.Decimal
import Verif.Proofs.Decimal
import Verif.Props.Loads
import Verif.Props.BoxMap
import Verif.Props.BoxMapExamples
import Verif.Props.BoxSolid
import Verif.Props.Log
import Verif.Props.LogExamples
import Verif.Props.WadLog
import Verif.Props.WadLogExamples
import Verif.Props.Flat
import Verif.Props.FlatExamples
import Verif.Props.Local
import Verif.Props.LocalExamples
import Verif.Props.Used
import Verif.Props.Hide
import Verif.Props.HideExamples
import Verif.Props.Alike
import Verif.Props.Texturing
import Verif.Props.TexturingExamples
import Verif.Props.Moving
import Verif.Props.MovingExamples
import Verif.Props.Shading
import Verif.Props.ShadingExamples
import Verif.Spec.Turning
import Verif.Props.Rigid
import Verif.Props.Turning
import Verif.Props.TurningExamples
import Verif.Spec.Reorder
import Verif.Props.Reorder
import Verif.Props.ReorderExamples
import Verif.Spec.Scaling
import Verif.Props.Scaling
import Verif.Props.ScalingExamples
import Verif.Spec.Locked
import Verif.Props.Locked
import Verif.Props.LockedExamples
import Verif.Spec.Projected
import Verif.Props.Case
import Verif.Props.WadSelect
import Verif.Spec.Shown
import Verif.Proofs.Soft
import Verif.Props.Shown
import Verif.Spec.Cracks
import Verif.Proofs.SoftFace
import Verif.Proofs.Tetra
import Verif.Props.Cracks
import Verif.Props.Defaults
import Verif.Props.DrawnSolid
import Verif.Props.TextureNames
import Verif.Props.Records
import Verif.Props.Sorting
import Verif.Spec.BoxUV
import Verif.Props.BoxUV
import Verif.Spec.Corner
import Verif.Proofs.Corner
import Verif.Props.Corner
import Verif.Spec.Clear
import Verif.Props.Clear
import Verif.Proofs.Outline
import Verif.Spec.Outline
import Verif.Props.Outline
import Verif.Spec.Sealed
import Verif.Props.Sealed
import Verif.Spec.Texels
import Verif.Props.Texels
import Verif.Spec.Gloss
import Verif.Props.Gloss
import Verif.Spec.Spin
import Verif.Props.Spin
import Verif.Spec.Rendered
import Verif.Props.Rendered
import Verif.Props.RenderedExamples
import Verif.Spec.Pointed
import Verif.Props.Pointed
import Verif.Props.PointedExamples
import Verif.Spec.Painted
import Verif.Props.Painted
import Verif.Props.PaintedExamples
import Verif.Props.Rotated
import Verif.Spec.Holes
import Verif.Props.Holes
import Verif.Props.HolesExamples
import Verif.Spec.Facing
import Verif.Props.Facing
import Verif.Props.FacingExamples
import Verif.Props.PointedHoles
import Verif.Props.PointedHolesExamples
import Verif.Props.Determined
import Verif.Props.Enclosed
import Verif.Props.Seams
import Verif.Props.Volume
import Verif.Props.Size
import Verif.Props.SizeExamples
import Verif.Props.FaceSize
import Verif.Props.FaceSizeExamples
import Verif.Props.GeoSize
import Verif.Props.GeoSizeExamples
import Verif.Props.Unreached
import Verif.Props.UnreachedExamples
import Verif.Props.Idle
import Verif.Props.IdleExamples
import Verif.Props.Padded
import Verif.Props.PaddedExamples
import Verif.Props.Twice
import Verif.Props.TwiceExamples
import Verif.Props.Zero
import Verif.Props.ZeroExamples
import Verif.Props.Sheet
import Verif.Props.SheetExamples
import Verif.Props.Few
import Verif.Props.FewExamples
import Verif.Props.InsideOut
import Verif.Props.InsideOutExamples
import Verif.Props.Mirror
import Verif.Props.MirrorExamples
import Verif.Props.MirrorWorld
import Verif.Props.MirrorWorldExamples
import Verif.Props.Join
import Verif.Props.JoinExamples
import Verif.Props.Cut
import Verif.Props.CutExamples
import Verif.Props.Walk
import Verif.Props.WalkExamples
import Verif.Props.WalkSingle
import Verif.Props.WalkSingleExamples
import Verif.Props.Clip
import Verif.Props.ClipExamples
import Verif.Props.Walls
import Verif.Props.WallsExamples
import Verif.Props.Rim
import Verif.Props.RimExamples
