import Verif.Props.BoxIterator
import Verif.Props.SideIterator
import Verif.Props.Simplex
import Verif.Props.LinearSolve
import Verif.Props.Octree
import Verif.Props.CallOrder
import Verif.Props.CmdLine
import Verif.Props.CmdHelp
import Verif.Props.Grids
import Verif.Props.PyWrapper
import Verif.Props.Interp
import Verif.Props.FindPoint
import Verif.Props.NodeInterp
import Verif.Props.FindOverlap
import Verif.Props.Triangulate
import Verif.Props.QuadIntersect
import Verif.Props.ConserveInterp
import Verif.Props.ConserveTotals
import Verif.Props.ConserveState
import Verif.Props.ConserveExamples
import Verif.Props.QuadLine
import Verif.Props.QuadFlows
import Verif.Props.FlowInterp
import Verif.Props.FlowOrder
import Verif.Props.FlowReverse
import Verif.Props.GridRounding
import Verif.Props.Rounding
import Verif.Props.FlowPotential
import Verif.Props.FlowSegments
import Verif.Props.Resources
import Verif.Props.FindHistory
import Verif.Props.FindDomain
import Verif.Props.Periodic
import Verif.Props.ConserveRange
import Verif.Props.ConserveInvariance
import Verif.Props.ConserveRect
import Verif.Props.PyArrays
import Verif.Props.PyRegrid
import Verif.Props.Tripolar
import Verif.Props.Polar
import Verif.Props.Stretched
import Verif.Props.NodeAccuracy
import Verif.Props.OctreeFlat
import Verif.Props.Curved
import Verif.Props.ConserveAccuracy
import Verif.Props.FlowAccuracy
import Verif.Model.FindPointRaw
import Verif.Proof.FindPointRaw
import Verif.Props.FindPointRaw
import Verif.Model.ConserveRaw
import Verif.Props.ConserveRaw
import Verif.Proof.OctreeRounded
import Verif.Props.OctreeRounding
import Verif.Proof.InterpRounded
import Verif.Props.InterpRounding
import Verif.Proof.NodeRounded
import Verif.Props.NodeRounding
import Verif.Proof.TriangulateRounded
import Verif.Props.HullRounding
import Verif.Spec.RoundedQuad
import Verif.Proof.QuadIntersectRounded
import Verif.Proof.RoundedSolver
import Verif.Props.CollectRounding
import Verif.Spec.RoundedCells
import Verif.Proof.ConserveRounded
import Verif.Props.ConserveRounding
import Verif.Model.NodeInterpRaw
import Verif.Props.NodeRaw
import Verif.Model.FlowRaw
import Verif.Props.FlowRaw
import Verif.Spec.RoundedLine
import Verif.Proof.QuadLineRounded
import Verif.Props.LineRounding
import Verif.Spec.Double
import Verif.Proof.Double
import Verif.Props.FlowDouble
import Verif.Spec.RoundedFlow
import Verif.Proof.FlowRounded
import Verif.Props.FlowRounding
import Verif.Spec.RoundedFlowLine
import Verif.Proof.FlowRun
import Verif.Proof.FlowInterpRounded
import Verif.Props.FlowInterpRounding
import Verif.Spec.Trapezoid
import Verif.Spec.Turns
import Verif.Proof.TrapSearch
import Verif.Proof.FlowTrap
import Verif.Props.FlowTrapezoid
import Verif.Proof.Turns
import Verif.Proof.PolarFlow
import Verif.Props.FlowPolar
import Verif.Spec.FairQuad
import Verif.Proof.Located
import Verif.Proof.ConvexSearch
import Verif.Proof.FairQuad
import Verif.Props.FlowConvex
import Verif.Spec.Curvature
import Verif.Proof.Curvature
import Verif.Props.FlowStream
import Verif.Spec.Ieee
import Verif.Proof.OctreeIeee
import Verif.Props.DivByZero
import Verif.Props.CollapsedCell
import Verif.Props.GridsRaw
import Verif.Props.TripolarRaw
import Verif.Props.ConserveOrder
import Verif.Props.OverlapRaw
import Verif.Props.LinearSolveRaw
import Verif.Props.BoxRaw
import Verif.Props.TriangulateRaw
import Verif.Props.FindPointRun
import Verif.Props.QuadMemory
import Verif.Props.OctreeRaw
import Verif.Props.ConserveSelf
import Verif.Props.NodeRun
import Verif.Props.OverlapRun
import Verif.Props.MissingValues
import Verif.Props.MissingNodes
import Verif.Props.MissingCoords
import Verif.Props.MissingCorners
import Verif.Model.QuadScratch
import Verif.Proof.QuadScratch
import Verif.Props.QuadScratch
import Verif.Props.MissingFlows
import Verif.Proof.FlowTurn
import Verif.Props.FlowTurn
import Verif.Props.FlowLocal
import Verif.Props.FlowEnds
import Verif.Proof.FlowMaps
import Verif.Props.FlowMaps
import Verif.Proof.MoveBound
import Verif.Props.FlowMove
import Verif.Spec.LoopCirculation
import Verif.Props.FlowCirculation
import Verif.Props.FlowStokes
import Verif.Spec.Refine
import Verif.Props.ConserveRefine
import Verif.Props.FlowRefine
import Verif.Props.FlowAlong
import Verif.Props.NodeRefine
import Verif.Proof.NodeShift
import Verif.Props.NodeShift
import Verif.Proof.Shift
import Verif.Proof.ConserveShift
import Verif.Proof.FlowShift
import Verif.Props.Origin
import Verif.Props.OverlapOrigin
import Verif.Props.OctreeAffine
import Verif.Props.OutsideWeights
import Verif.Proof.OverlapRounded
import Verif.Props.OverlapRounding
import Verif.Props.OverlapSubset
import Verif.Props.SearchRounding
import Verif.Props.NodeAccuracyRounding
import Verif.Props.ConserveAccuracyRounding
import Verif.Proof.RegularRounded
import Verif.Spec.RoundedRegular
import Verif.Props.RegularRounding
import Verif.Props.AwayRounding
import Verif.Props.BesideRounding
import Verif.Props.ApartRounding
import Verif.Props.DataUnits
import Verif.Props.MonotoneRounding
import Verif.Props.DataSigns
import Verif.Props.EvenRounding
