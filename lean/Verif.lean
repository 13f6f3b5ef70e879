import Verif.Props.Boxes
import Verif.Props.Mesh
import Verif.Props.FE
import Verif.Props.Energy
import Verif.Props.Operator
import Verif.Props.Stokes
import Verif.Props.Dirichlet
import Verif.Props.StokesRhs
import Verif.Props.Assemble
import Verif.Props.AssembleBC
import Verif.Props.Geometry
import Verif.Props.Shape
import Verif.Props.Sampling
import Verif.Props.Particle
import Verif.Props.Control
import Verif.Props.Forces
import Verif.Props.Surface
import Verif.Props.Spread
import Verif.Props.Trunc
import Verif.Props.SingNormal2D
import Verif.Props.SingNormal3D
import Verif.Model.SingTang
import Verif.Props.Frame
import Verif.Props.Cutoff
import Verif.Props.Closing
import Verif.Props.ContactBox
import Verif.Props.GradFrame
import Verif.Props.GradInst
import Verif.Props.Dton
import Verif.Props.DtonInst
import Verif.Props.SurfacePieces
import Verif.Model.SemPost
import Verif.Props.SemPost
import Verif.Props.Lubrication
import Verif.Props.Projection
import Verif.Props.PairLoop
import Verif.Props.AddSing
import Verif.Props.WeakForm
import Verif.Props.WeakPressure
import Verif.Props.Post
import Verif.Props.PostProcs
import Verif.Props.Ntod
import Verif.Props.Multigrid
import Verif.Props.Prealloc
import Verif.Props.Vtk
import Verif.Props.SingTang2D
import Verif.Props.SingTang3D
import Verif.Props.SingTang3DWall
import Verif.Lemmas.Definite
import Verif.Lemmas.Propagate
import Verif.Lemmas.GradKernel
import Verif.Props.Unique
import Verif.Props.Coarse
import Verif.Spec.Flux
import Verif.Lemmas.Flux
import Verif.Lemmas.Solvable
import Verif.Props.Solvable
import Verif.Model.Sampling3
import Verif.Props.Sampling3
import Verif.Spec.Flow
import Verif.Lemmas.Flow
import Verif.Lemmas.Exact
import Verif.Props.Exact
import Verif.Lemmas.Korn
import Verif.Props.Korn
import Verif.Props.Jacobi
import Verif.Props.Smoother
import Verif.Model.Arith
import Verif.Props.Arith
import Verif.Model.NtodDriver
import Verif.Props.NtodDriver
import Verif.Lemmas.BallMoments
import Verif.Model.Constants
import Verif.Props.Constants
import Verif.Props.Dissipation
import Verif.Model.Options
import Verif.Props.Options
import Verif.Model.Triangulation
import Verif.Props.Triangulation
import Verif.Model.NtodPieces
import Verif.Props.NtodInst
import Verif.Model.NtodProcs
import Verif.Props.NtodProcs
import Verif.Props.Zone
import Verif.Props.SingLinear3
import Verif.Props.Misfit
import Verif.Props.SemMisfit
import Verif.Props.SemExists
import Verif.Props.Poincare
import Verif.Props.SurfSing
import Verif.Props.Walls
import Verif.Props.Lid3
import Verif.Props.Inexact3
import Verif.Props.Work
import Verif.Props.NullSpace
import Verif.Model.Spmd
import Verif.Model.SpmdOps
import Verif.Lemmas.Spmd
import Verif.Lemmas.SpmdOps
import Verif.Lemmas.SpmdRel
import Verif.Lemmas.SpmdExec
import Verif.Lemmas.SpmdLoops
import Verif.Lemmas.SpmdCalls
import Verif.Props.Spmd
import Verif.Model.SpmdMat
import Verif.Spec.SpmdMat
import Verif.Lemmas.SpmdMat
import Verif.Props.SpmdMat
import Verif.Model.SpmdCtl
import Verif.Spec.SpmdCtl
import Verif.Lemmas.SpmdCtl
import Verif.Props.SpmdCtl
import Verif.Model.VtkSave
import Verif.Spec.VtkSave
import Verif.Lemmas.VtkSave
import Verif.Props.VtkSave
import Verif.Model.Report
import Verif.Spec.Report
import Verif.Lemmas.Report
import Verif.Props.Report
import Verif.Props.MakeBC
import Verif.Props.Rounding
import Verif.Props.RoundingDiag
import Verif.Props.RoundingGeom
import Verif.Props.Hdf5Save
import Verif.Props.SingHomog3
import Verif.Lemmas.DivBound
import Verif.Model.Pmm
import Verif.Props.Pmm
