import Verif.Model.Basis
import Verif.Model.BasisMatrices
import Verif.Model.ClenshawCurtis
import Verif.Model.Construction
import Verif.Model.Duck
import Verif.Model.EdgeClustered
import Verif.Model.ExactTo
import Verif.Model.Faces
import Verif.Model.FormMatrices
import Verif.Model.Gauss
import Verif.Model.GrundmannMoeller
import Verif.Model.Jacobi
import Verif.Model.Kronrod
import Verif.Model.Lebesgue
import Verif.Model.Matrices
import Verif.Model.ModalDecay
import Verif.Model.Monomial
import Verif.Model.NdArray
import Verif.Model.Nodes
import Verif.Model.Pickle
import Verif.Model.Pkdo
import Verif.Model.Py
import Verif.Model.Pytools
import Verif.Model.QuadForSpace
import Verif.Model.Quadrature
import Verif.Model.RandomNodes
import Verif.Model.Reshape
import Verif.Model.Shapes
import Verif.Model.Spaces
import Verif.Model.Strip
import Verif.Model.Submesh
import Verif.Model.Symbolic
import Verif.Model.TableJs
import Verif.Model.TableRules
import Verif.Model.TableVr
import Verif.Model.TableWv
import Verif.Model.TableXg
import Verif.Model.TensorNodes
import Verif.Model.Tools
import Verif.Model.Transplanted
import Verif.Model.WarpBlend
import Verif.Proofs.BaryPoly
import Verif.Proofs.BasisDerivatives
import Verif.Proofs.BasisExact
import Verif.Proofs.BasisSpan
import Verif.Proofs.ClenshawCurtis
import Verif.Proofs.Continuant
import Verif.Proofs.Dirichlet
import Verif.Proofs.DiscreteCosine
import Verif.Proofs.Divergence
import Verif.Proofs.Elliptic
import Verif.Proofs.Equilateral
import Verif.Proofs.EquispacedGrowth
import Verif.Proofs.EulerianB
import Verif.Proofs.FejerBound
import Verif.Proofs.FormZero
import Verif.Proofs.Functional
import Verif.Proofs.GmLists
import Verif.Proofs.GolubWelsch
import Verif.Proofs.GolubWelschAgree
import Verif.Proofs.Grid
import Verif.Proofs.Homog
import Verif.Proofs.JacobiClassical
import Verif.Proofs.JacobiGauss
import Verif.Proofs.JacobiIntegral
import Verif.Proofs.JacobiModel
import Verif.Proofs.JacobiPoly
import Verif.Proofs.Kaluza
import Verif.Proofs.KronrodEmbed
import Verif.Proofs.KronrodExists
import Verif.Proofs.KronrodInterior
import Verif.Proofs.KronrodRule
import Verif.Proofs.Laurie
import Verif.Proofs.LaurieExact
import Verif.Proofs.Lebesgue
import Verif.Proofs.LegendreBoundary
import Verif.Proofs.LegendreMonic
import Verif.Proofs.LegendreQ
import Verif.Proofs.Lobatto
import Verif.Proofs.ModeTuples
import Verif.Proofs.NdArray
import Verif.Proofs.Nodes
import Verif.Proofs.PinvExists
import Verif.Proofs.ProductIntegral
import Verif.Proofs.ProductUnisolvence
import Verif.Proofs.Pytools
import Verif.Proofs.QuadArrays
import Verif.Proofs.QuadForSpaceExact
import Verif.Proofs.Reshape
import Verif.Proofs.SimplexIntegral
import Verif.Proofs.SimplexTrace
import Verif.Proofs.SpacePoly
import Verif.Proofs.Spanning
import Verif.Proofs.Stieltjes
import Verif.Proofs.StieltjesDegree
import Verif.Proofs.Submesh
import Verif.Proofs.SubmeshHull
import Verif.Proofs.SubmeshTables
import Verif.Proofs.TableCheck
import Verif.Proofs.TableCheckJs1
import Verif.Proofs.TableCheckJs2
import Verif.Proofs.TableCheckVr
import Verif.Proofs.TableCheckWv
import Verif.Proofs.TableCheckXg1
import Verif.Proofs.TableCheckXg2
import Verif.Proofs.TableCheckXg3
import Verif.Proofs.TableCheckXg4
import Verif.Proofs.TableClose
import Verif.Proofs.TableRules
import Verif.Proofs.TableScaling
import Verif.Proofs.TensorBasis
import Verif.Proofs.TensorDeriv
import Verif.Proofs.TensorLagrange
import Verif.Proofs.TensorNodes
import Verif.Proofs.TensorQuadrature
import Verif.Proofs.Tetrahedron
import Verif.Proofs.TetrahedronGrad
import Verif.Proofs.Triangle
import Verif.Proofs.Unisolvence
import Verif.Proofs.WarpFactor
import Verif.Proofs.WarpInner
import Verif.Proofs.WarpLower
import Verif.Proofs.WarpShift
import Verif.Proofs.WarpUnisolvence
import Verif.Props.Basis
import Verif.Props.BasisSpan
import Verif.Props.Chebyshev
import Verif.Props.Christoffel
import Verif.Props.ClenshawCurtis
import Verif.Props.Composite
import Verif.Props.ConformingNodes
import Verif.Props.Convergence
import Verif.Props.ConvergenceCube
import Verif.Props.ConvergenceKronrod
import Verif.Props.ConvergenceTransplanted
import Verif.Props.CubeMesh
import Verif.Props.DegreeVector
import Verif.Props.DiffAlgebra
import Verif.Props.DiffPermutation
import Verif.Props.DiscreteProjection
import Verif.Props.Divergence
import Verif.Props.EdgeClustered
import Verif.Props.EdgeClusteredMatrices
import Verif.Props.EndToEnd
import Verif.Props.ExactTo
import Verif.Props.FaceRows
import Verif.Props.Faces
import Verif.Props.Fejer
import Verif.Props.Fekete
import Verif.Props.Fractions
import Verif.Props.Gauss
import Verif.Props.GaussNewton
import Verif.Props.GrundmannMoeller
import Verif.Props.GuessNodes
import Verif.Props.Indexing
import Verif.Props.Jacobi
import Verif.Props.KronrodAssembly
import Verif.Props.KronrodEig
import Verif.Props.KronrodGauss
import Verif.Props.KronrodNewton
import Verif.Props.KronrodRule
import Verif.Props.Lebesgue
import Verif.Props.LinearCombination
import Verif.Props.Lobatto
import Verif.Props.LobattoNorm
import Verif.Props.MassAlgebra
import Verif.Props.Matrices
import Verif.Props.ModalDecay
import Verif.Props.ModalFilter
import Verif.Props.MonomialTools
import Verif.Props.Monomials
import Verif.Props.NodeBound
import Verif.Props.Orthogonalize
import Verif.Props.OrthonormalProducts
import Verif.Props.Pickle
import Verif.Props.Pkdo
import Verif.Props.QuadForSpace
import Verif.Props.Quadgk
import Verif.Props.QuadgkInf
import Verif.Props.QuadgkLocal
import Verif.Props.QuadgkLocalInf
import Verif.Props.QuadgkPoly
import Verif.Props.QuadgkTolerance
import Verif.Props.Quadrature
import Verif.Props.QuasiOptimal
import Verif.Props.RandomNodes
import Verif.Props.Shapes
import Verif.Props.Sharp
import Verif.Props.SharpTensor
import Verif.Props.SimplexTrace
import Verif.Props.SpectralMass
import Verif.Props.Strip
import Verif.Props.Submesh
import Verif.Props.SubmeshIntegral
import Verif.Props.SumFactorization
import Verif.Props.SummationByParts
import Verif.Props.Symbolic
import Verif.Props.Symmetry
import Verif.Props.TableRules
import Verif.Props.Tools
import Verif.Props.Transplanted
import Verif.Props.UniformConvergence
import Verif.Props.Upwind
import Verif.Props.WarpBlend
import Verif.Props.WeakForms
import Verif.Spec.Calculus
import Verif.Spec.Equilateral
import Verif.Spec.Functional
import Verif.Spec.Geometry
import Verif.Spec.Index
import Verif.Spec.Interpolation
import Verif.Spec.Jacobi
import Verif.Spec.Measure
import Verif.Spec.Quadrature
import Verif.Spec.Simplex
import Verif.Spec.Tessellation
