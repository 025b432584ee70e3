import Verif.Audit
import Verif.Lemmas.Accuracy
import Verif.Lemmas.Bar
import Verif.Lemmas.Barycentric
import Verif.Lemmas.Basic
import Verif.Lemmas.Boundary
import Verif.Lemmas.CGDynamic
import Verif.Lemmas.CGRate
import Verif.Lemmas.CGStatic
import Verif.Lemmas.CanonicalIntegral
import Verif.Lemmas.Composite
import Verif.Lemmas.ConjugateGradient
import Verif.Lemmas.Continuity
import Verif.Lemmas.Convergence
import Verif.Lemmas.Convergence2
import Verif.Lemmas.CorotEnergy
import Verif.Lemmas.Corotational
import Verif.Lemmas.Distorted
import Verif.Lemmas.EigenMatrix
import Verif.Lemmas.Elements
import Verif.Lemmas.ElementsD
import Verif.Lemmas.FebioScript
import Verif.Lemmas.FenicsScript
import Verif.Lemmas.FictitiousGrid
import Verif.Lemmas.FictitiousLeaves
import Verif.Lemmas.FictitiousLife
import Verif.Lemmas.FictitiousNeighbors
import Verif.Lemmas.FictitiousSurface
import Verif.Lemmas.Frame
import Verif.Lemmas.Galerkin
import Verif.Lemmas.Gauss
import Verif.Lemmas.GlobalSystem
import Verif.Lemmas.Grid
import Verif.Lemmas.GridDrawing
import Verif.Lemmas.GridEdges
import Verif.Lemmas.GridEnclosing
import Verif.Lemmas.GridLocate
import Verif.Lemmas.HashGrid
import Verif.Lemmas.HeldBody
import Verif.Lemmas.HexaRigid
import Verif.Lemmas.HyperComponent
import Verif.Lemmas.Hyperelastic
import Verif.Lemmas.Intersect
import Verif.Lemmas.IsoSurfaces
import Verif.Lemmas.LegacyStatic
import Verif.Lemmas.LoadHistory
import Verif.Lemmas.LocalCoordinates
import Verif.Lemmas.Material
import Verif.Lemmas.MaterialContinuity
import Verif.Lemmas.Mesh
import Verif.Lemmas.MeshMemory
import Verif.Lemmas.Momentum
import Verif.Lemmas.Motion
import Verif.Lemmas.NearAffine
import Verif.Lemmas.NearNewton
import Verif.Lemmas.Newton
import Verif.Lemmas.NodeOrder
import Verif.Lemmas.NodeOrderHexa
import Verif.Lemmas.NodeOrderSolid
import Verif.Lemmas.NodeRegion
import Verif.Lemmas.OrderRaise
import Verif.Lemmas.Orientation
import Verif.Lemmas.Patch
import Verif.Lemmas.PolyDegree
import Verif.Lemmas.PyFactories
import Verif.Lemmas.PyGrid
import Verif.Lemmas.PyTopology
import Verif.Lemmas.Quadratic
import Verif.Lemmas.Refinement
import Verif.Lemmas.Regions
import Verif.Lemmas.Settle
import Verif.Lemmas.Similarity
import Verif.Lemmas.SmallLoads
import Verif.Lemmas.Stability
import Verif.Lemmas.StoredTensors
import Verif.Lemmas.Traction
import Verif.Lemmas.TractionWork
import Verif.Model.BackwardEuler
import Verif.Model.Barycentric
import Verif.Model.BaseVector
import Verif.Model.BeamScenes
import Verif.Model.BenchmarkMotion
import Verif.Model.BenchmarkTable
import Verif.Model.Boundary
import Verif.Model.CGComponent
import Verif.Model.CGDynamic
import Verif.Model.CGStatic
import Verif.Model.CGTable
import Verif.Model.CGTimes
import Verif.Model.Canonical
import Verif.Model.Composite
import Verif.Model.ConjugateGradient
import Verif.Model.CorotComponent
import Verif.Model.CorotEnergy
import Verif.Model.Corotational
import Verif.Model.Creation
import Verif.Model.DirectTable
import Verif.Model.DocInventory
import Verif.Model.DomainMove
import Verif.Model.Drawing
import Verif.Model.DynamicODE
import Verif.Model.EigenMatrix
import Verif.Model.EigenSolver
import Verif.Model.Elements
import Verif.Model.FebioScript
import Verif.Model.FenicsScript
import Verif.Model.FictitiousGauss
import Verif.Model.FictitiousGrid
import Verif.Model.FictitiousLife
import Verif.Model.FictitiousLookup
import Verif.Model.FictitiousRegions
import Verif.Model.FictitiousSparse
import Verif.Model.FictitiousSurface
import Verif.Model.Frame
import Verif.Model.GlobalSystem
import Verif.Model.Grid
import Verif.Model.GridDrawing
import Verif.Model.HashGrid
import Verif.Model.HyperComponent
import Verif.Model.Hyperelastic
import Verif.Model.IntegrationFactors
import Verif.Model.Intersect
import Verif.Model.IsoSurfaces
import Verif.Model.LegacyCG
import Verif.Model.LegacyScene
import Verif.Model.LegacyStatic
import Verif.Model.LocalCoordinates
import Verif.Model.Lookup
import Verif.Model.Manufactured
import Verif.Model.Mapping
import Verif.Model.MappingComponent
import Verif.Model.Material
import Verif.Model.Mesh
import Verif.Model.MeshAssign
import Verif.Model.MeshScripts
import Verif.Model.Newton
import Verif.Model.PyAssemble
import Verif.Model.PyFactories
import Verif.Model.PyGrid
import Verif.Model.PyHashGrid
import Verif.Model.PyRecords
import Verif.Model.PyTopology
import Verif.Model.Rectangular
import Verif.Model.Report
import Verif.Model.StaticODE
import Verif.Model.StoredTensors
import Verif.Model.SurfaceDrawing
import Verif.Model.TimerEvents
import Verif.Model.Topology
import Verif.Model.Traction
import Verif.Model.VTK
import Verif.Props.Accuracy
import Verif.Props.BackwardEuler
import Verif.Props.Bar
import Verif.Props.Barycentric
import Verif.Props.BaseVector
import Verif.Props.BeamScenes
import Verif.Props.BenchmarkMotion
import Verif.Props.BenchmarkTable
import Verif.Props.Boundary
import Verif.Props.BoxSolution
import Verif.Props.CGComponent
import Verif.Props.CGDynamic
import Verif.Props.CGRate
import Verif.Props.CGStatic
import Verif.Props.CGTable
import Verif.Props.CGTimes
import Verif.Props.Canonical
import Verif.Props.Composite
import Verif.Props.ConjugateGradient
import Verif.Props.Consistency
import Verif.Props.Continuity
import Verif.Props.Convergence
import Verif.Props.CorotComponent
import Verif.Props.CorotEnergy
import Verif.Props.CorotLife
import Verif.Props.Corotational
import Verif.Props.Creation
import Verif.Props.DirectTable
import Verif.Props.Distorted
import Verif.Props.DocInventory
import Verif.Props.DomainMove
import Verif.Props.Drawing
import Verif.Props.DynamicODE
import Verif.Props.EigenMatrix
import Verif.Props.EigenSolver
import Verif.Props.Energy
import Verif.Props.FebioScript
import Verif.Props.FenicsScript
import Verif.Props.FictitiousGauss
import Verif.Props.FictitiousGrid
import Verif.Props.FictitiousLife
import Verif.Props.FictitiousLookup
import Verif.Props.FictitiousOutside
import Verif.Props.FictitiousRatios
import Verif.Props.FictitiousSparse
import Verif.Props.FictitiousSurface
import Verif.Props.FictitiousTags
import Verif.Props.Galerkin
import Verif.Props.GlobalSystem
import Verif.Props.Grid
import Verif.Props.GridDrawing
import Verif.Props.GridLocate
import Verif.Props.GridMesh
import Verif.Props.HashGrid
import Verif.Props.HeldBody
import Verif.Props.HyperComponent
import Verif.Props.HyperObjectivity
import Verif.Props.Hyperelastic
import Verif.Props.IntegrationFactors
import Verif.Props.Intersect
import Verif.Props.IsoSurfaces
import Verif.Props.LegacyCG
import Verif.Props.LegacyScene
import Verif.Props.LegacyStatic
import Verif.Props.LinearStatics
import Verif.Props.LoadHistory
import Verif.Props.LocalCoordinates
import Verif.Props.Lookup
import Verif.Props.Manufactured
import Verif.Props.ManufacturedStress
import Verif.Props.Mapping
import Verif.Props.MappingComponent
import Verif.Props.Material
import Verif.Props.Mesh
import Verif.Props.MeshMemory
import Verif.Props.MeshScripts
import Verif.Props.Momentum
import Verif.Props.Motion
import Verif.Props.NearAffine
import Verif.Props.NearNewton
import Verif.Props.Newton
import Verif.Props.NodeOrder
import Verif.Props.Objectivity
import Verif.Props.OrderRaise
import Verif.Props.Patch
import Verif.Props.PyAssemble
import Verif.Props.PyFactories
import Verif.Props.PyGrid
import Verif.Props.PyHashGrid
import Verif.Props.PyRecords
import Verif.Props.PyTopology
import Verif.Props.Quadratic
import Verif.Props.Quadrature
import Verif.Props.Rectangular
import Verif.Props.Refinement
import Verif.Props.Report
import Verif.Props.Settle
import Verif.Props.Shape
import Verif.Props.Similarity
import Verif.Props.SmallAgree
import Verif.Props.SmallLoads
import Verif.Props.SmallStrain
import Verif.Props.Stability
import Verif.Props.StaticODE
import Verif.Props.StaticPatch
import Verif.Props.StoredTensors
import Verif.Props.Supports
import Verif.Props.SurfaceDrawing
import Verif.Props.Symmetry
import Verif.Props.TimerEvents
import Verif.Props.Topology
import Verif.Props.Traction
import Verif.Props.TractionWork
import Verif.Props.VTK
import Verif.Spec.Accuracy
import Verif.Spec.BackwardEuler
import Verif.Spec.Bar
import Verif.Spec.BaseVector
import Verif.Spec.BeamScenes
import Verif.Spec.BenchmarkMotion
import Verif.Spec.BenchmarkTable
import Verif.Spec.Boundary
import Verif.Spec.CGComponent
import Verif.Spec.CGDynamic
import Verif.Spec.CGRate
import Verif.Spec.CGStatic
import Verif.Spec.CGTimes
import Verif.Spec.Canonical
import Verif.Spec.Composite
import Verif.Spec.ConjugateGradient
import Verif.Spec.Consistency
import Verif.Spec.Continuity
import Verif.Spec.Convergence
import Verif.Spec.CorotComponent
import Verif.Spec.CorotEnergy
import Verif.Spec.Creation
import Verif.Spec.DirectTable
import Verif.Spec.Distorted
import Verif.Spec.DocInventory
import Verif.Spec.Drawing
import Verif.Spec.DynamicODE
import Verif.Spec.EigenMatrix
import Verif.Spec.EigenSolver
import Verif.Spec.Energy
import Verif.Spec.FebioScript
import Verif.Spec.FenicsScript
import Verif.Spec.FictitiousGrid
import Verif.Spec.FictitiousLife
import Verif.Spec.FictitiousSurface
import Verif.Spec.Frame
import Verif.Spec.Galerkin
import Verif.Spec.GlobalSystem
import Verif.Spec.Grid
import Verif.Spec.GridDrawing
import Verif.Spec.GridSurface
import Verif.Spec.HashGrid
import Verif.Spec.HeldBody
import Verif.Spec.HyperComponent
import Verif.Spec.IntegrationFactors
import Verif.Spec.Interpolation
import Verif.Spec.Intersect
import Verif.Spec.IsoSurfaces
import Verif.Spec.LegacyCG
import Verif.Spec.LegacyScene
import Verif.Spec.LegacyStatic
import Verif.Spec.LinearStatics
import Verif.Spec.LoadHistory
import Verif.Spec.LocalCoordinates
import Verif.Spec.Lookup
import Verif.Spec.Manufactured
import Verif.Spec.MappingComponent
import Verif.Spec.Material
import Verif.Spec.Mesh
import Verif.Spec.MeshScripts
import Verif.Spec.Momentum
import Verif.Spec.Motion
import Verif.Spec.NearAffine
import Verif.Spec.Newton
import Verif.Spec.NodeOrder
import Verif.Spec.OrderRaise
import Verif.Spec.Patch
import Verif.Spec.PyAssemble
import Verif.Spec.PyFactories
import Verif.Spec.PyRecords
import Verif.Spec.PyTopology
import Verif.Spec.Quadratic
import Verif.Spec.Refinement
import Verif.Spec.Regions
import Verif.Spec.Report
import Verif.Spec.Settle
import Verif.Spec.Similarity
import Verif.Spec.SmallLoads
import Verif.Spec.Stability
import Verif.Spec.StaticODE
import Verif.Spec.StaticPatch
import Verif.Spec.StoredTensors
import Verif.Spec.Supports
import Verif.Spec.SurfaceDrawing
import Verif.Spec.Symmetry
import Verif.Spec.TimerEvents
import Verif.Spec.Traction
import Verif.Spec.TractionWork
import Verif.Spec.VTK
