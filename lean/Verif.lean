import Verif.Props.NestedVec
import Verif.Props.Paradis
import Verif.Props.Util
import Verif.Props.Permutation
import Verif.Props.Reorder
import Verif.Props.MeshOps
import Verif.Props.Refinement
import Verif.Props.Procedural
import Verif.Props.ElementBasis
import Verif.Props.ElementGradient
import Verif.Props.ElementGradientReal
import Verif.Props.ElementReproduce
import Verif.Props.ElementContinuity
import Verif.Props.MeshConvert
import Verif.Props.Pattern
import Verif.Props.ReorderPar
import Verif.Props.Assembly
import Verif.Props.Dirichlet
import Verif.Props.Aggregate
import Verif.Props.MapNodes
import Verif.Props.QuadratureTable
import Verif.Props.ElementAssembly
import Verif.Props.Gravity
import Verif.Props.EllipticAssembler
import Verif.Props.CgConjugate
import Verif.Props.Newton
import Verif.Props.Calculus
import Verif.Props.QuadratureSubdivide
import Verif.Props.QuadratureGauss
import Verif.Props.Polyquad
import Verif.Props.GeometryUtil
import Verif.Props.Aabb
import Verif.Props.Lines
import Verif.Props.Clip
import Verif.Props.PolygonArea
import Verif.Props.Triangle
import Verif.Props.PolygonDistance
import Verif.Props.ClosestPoint
import Verif.Props.SpatialIndex
import Verif.Props.Interpolate
import Verif.Props.Solid
import Verif.Props.Variational
import Verif.Props.Integrate
import Verif.Props.ErrorNorm
import Verif.Props.PolyMesh
import Verif.Props.PolyKeep
import Verif.Props.PolySplit
import Verif.Props.PolyTriangulate
import Verif.Props.PolyVolume
import Verif.Props.PolyClip
import Verif.Props.Io
import Verif.Props.Polyhedron
import Verif.Props.Winding
import Verif.Props.Workspace
import Verif.Props.Sdf
import Verif.Props.CsrRows
import Verif.Props.Surface
import Verif.Props.PolyConvert
import Verif.Props.HexTets
import Verif.Props.MeshUtil
import Verif.Props.VoxelSdf
import Verif.Props.TetTiling
import Verif.Props.TetGrid
import Verif.Props.InverseMap
import Verif.Props.Rotation
import Verif.Props.EigenUtil
import Verif.Props.ShippedRules
import Verif.Props.Canonical
import Verif.Props.PatchTest
import Verif.Props.PatchTestRules
import Verif.Props.Buffers
import Verif.Props.Dump
import Verif.Props.Lobatto
import Verif.Props.IndexedSpace
import Verif.Props.GridFaces
import Verif.Props.CgWorkspace
import Verif.Props.LinearProblem
import Verif.Props.Poisson
import Verif.Props.PoissonRules
import Verif.Props.DirichletPrinciple
import Verif.Props.MassAssembler
import Verif.Props.MassRules
import Verif.Props.Elasticity
import Verif.Props.ElasticityMesh
import Verif.Props.ElasticityGrids
import Verif.Props.Combinators
import Verif.Props.TransformAssembler
import Verif.Props.QuadratureGaussRoots
import Verif.Props.SphereMesh
import Verif.Props.PolyCut
import Verif.Props.RefinedSpace
import Verif.Props.MaximumPrinciple
import Verif.Props.Equilibrium
import Verif.Props.Objectivity
import Verif.Props.TangentTurn
import Verif.Props.BestApproximation
import Verif.Props.TetProblems
import Verif.Props.TetElasticity
import Verif.Props.SplitSurface
import Verif.Props.TriProblems
import Verif.Props.Deformation
import Verif.Props.Renumber
import Verif.Props.Reciprocity
import Verif.Props.NewtonLinear
import Verif.Props.NewtonInexact
import Verif.Props.NewtonAffine
