import Verif.Props.AbsorberPass
import Verif.Props.Adjacent
import Verif.Props.ArrayFormat
import Verif.Props.Arrival
import Verif.Props.Bboxes
import Verif.Props.Buffers
import Verif.Props.Config
import Verif.Props.Crossing
import Verif.Props.CrossingCases
import Verif.Props.CyclicBuffer
import Verif.Props.DefaultDict
import Verif.Props.Directions
import Verif.Props.Display
import Verif.Props.Distance
import Verif.Props.DistanceCases
import Verif.Props.Distinct
import Verif.Props.DrawnExact
import Verif.Props.Echo
import Verif.Props.FileSystem
import Verif.Props.Files
import Verif.Props.FilesErrors
import Verif.Props.Graph
import Verif.Props.Hierarchy
import Verif.Props.Intersect
import Verif.Props.Logger
import Verif.Props.Mesh
import Verif.Props.Output
import Verif.Props.OutputRounded
import Verif.Props.PairsExact
import Verif.Props.Paths
import Verif.Props.Placement
import Verif.Props.Plan
import Verif.Props.PlanConvex
import Verif.Props.PlanEll
import Verif.Props.PlanPlace
import Verif.Props.PlanRooms
import Verif.Props.PlanRoomsSimple
import Verif.Props.PointExact
import Verif.Props.PointInPolygon
import Verif.Props.PointInPolygonCases
import Verif.Props.PointInSolid
import Verif.Props.PointInSolidBox
import Verif.Props.PointKey
import Verif.Props.Points
import Verif.Props.PolygonBasic
import Verif.Props.PolygonEq
import Verif.Props.PolygonErrors
import Verif.Props.PolygonObj
import Verif.Props.Reflections
import Verif.Props.Region
import Verif.Props.RegionWinding
import Verif.Props.Reload
import Verif.Props.ReloadSolids
import Verif.Props.Rooms
import Verif.Props.RoomsLocate
import Verif.Props.RoomsSim
import Verif.Props.Rotation
import Verif.Props.Rounded
import Verif.Props.RoundedArea
import Verif.Props.RoundedBetween
import Verif.Props.RoundedCentroid
import Verif.Props.RoundedNear
import Verif.Props.RoundedNearRun
import Verif.Props.RoundedPlan
import Verif.Props.RoundedPlanFaces
import Verif.Props.RoundedPoints
import Verif.Props.RoundedRays
import Verif.Props.RoundedRotation
import Verif.Props.RoundedSlanted
import Verif.Props.RoundedVolume
import Verif.Props.RunResponse
import Verif.Props.RunResponseRounded
import Verif.Props.SavedArrays
import Verif.Props.SegmentCrossing
import Verif.Props.SegmentCrossingCases
import Verif.Props.SegmentPolygonExact
import Verif.Props.SegmentsExact
import Verif.Props.Shapes
import Verif.Props.ShapesCases
import Verif.Props.ShapesSim
import Verif.Props.ShapesSurface
import Verif.Props.SimBatch
import Verif.Props.SimFate
import Verif.Props.SimGridRounded
import Verif.Props.SimGridRun
import Verif.Props.SimLoop
import Verif.Props.SimPar
import Verif.Props.SimRounded
import Verif.Props.SimRoundedBalance
import Verif.Props.SimRoundedRun
import Verif.Props.SimSetup
import Verif.Props.SimplePolygons
import Verif.Props.Slice
import Verif.Props.SliceCases
import Verif.Props.SliceConvex
import Verif.Props.SliceCross
import Verif.Props.SliceErrors
import Verif.Props.SliceKeep
import Verif.Props.SliceNamed
import Verif.Props.SliceNames
import Verif.Props.SliceParts
import Verif.Props.SliceThrough
import Verif.Props.SolidExact
import Verif.Props.Solids
import Verif.Props.Stitch
import Verif.Props.StitchBuilding
import Verif.Props.StitchCases
import Verif.Props.StitchRun
import Verif.Props.StitchSurface
import Verif.Props.StitchWindow
import Verif.Props.Stl
import Verif.Props.StlCut
import Verif.Props.Stopped
import Verif.Props.Tiling
import Verif.Props.Tolerance
import Verif.Props.Touching
import Verif.Props.TouchingCases
import Verif.Props.Triangles
import Verif.Props.Util
import Verif.Props.VoxelGrid
import Verif.Props.Walls
import Verif.Props.WallsLeak
import Verif.Props.WallsReal
import Verif.Props.WallsRoom
import Verif.Props.WholeRun
import Verif.Props.WholeRunWalls
import Verif.Props.Wildcard
import Verif.Conformance.Tests
