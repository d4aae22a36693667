import Verif.Time.Props
import Verif.Sched.Props
import Verif.Sched.NetProps
import Verif.Sparse.Props
import Verif.Shared.Props
import Verif.Dist.Props
import Verif.Dist.Mpi
import Verif.Dist.Gaspi
import Verif.Dist.Sync
import Verif.Data.Props
import Verif.EdgeV.Cfl
import Verif.EdgeV.Part
import Verif.EdgeV.CommProps
import Verif.EdgeV.EndToEnd
import Verif.Linalg.Formats
import Verif.Seismic.Flux
import Verif.Seismic.Star
import Verif.Swe.Props
import Verif.Seismic.Friction
import Verif.Seismic.RotMat
import Verif.Seismic.IntBnd
import Verif.Seismic.IntBndProps
import Verif.Seismic.IntBndProps3
import Verif.Sources.Series
import Verif.Sources.Model
import Verif.Sources.Props
import Verif.Dg.Kernels
import Verif.Dg.Tensor
import Verif.Dg.CkProps
import Verif.Dg.Pred
import Verif.Dg.LtsModel
import Verif.Dg.Surf
import Verif.Dg.Lts
import Verif.Dg.Props
import Verif.Recv.Model
import Verif.Recv.One
import Verif.Recv.State
import Verif.Recv.Init
import Verif.Recv.Props
import Verif.Recv.Steps
import Verif.Recv.Sampling
import Verif.Recv.Race
import Verif.Sc.Model
import Verif.Sc.Detect
import Verif.Sc.Kern
import Verif.Sc.Steer
import Verif.Mesh.Model
import Verif.Mesh.Lex
import Verif.Mesh.Build
import Verif.Mesh.Sparse
import Verif.Mesh.Norm
import Verif.Mesh.Orient
import Verif.Mesh.Final
import Verif.Mesh.Adj
import Verif.Mesh.Periodic
import Verif.Mesh.Ctor
import Verif.Mesh.Ids
import Verif.Mesh.Ex
import Verif.EdgeV.Grid
import Verif.Lts.Model
import Verif.Lts.Props
import Verif.Lts.Ranks
import Verif.Run.Model
import Verif.Run.Props
import Verif.Run.Wave
import Verif.Cut.Model
import Verif.Cut.Cells
import Verif.Cut.Tiling
import Verif.Cut.Cover
import Verif.Cut.Chain
import Verif.Cut.Closed
import Verif.Cut.Water
import Verif.Cut.Depth
import Verif.Map.Model
import Verif.Map.Props
import Verif.Map.Faces
import Verif.Map.Inside
import Verif.Quad.Model
import Verif.Quad.Points
import Verif.Quad.Exact
import Verif.Quad.Elements
import Verif.Quad.Volume
import Verif.Basis.Expr
import Verif.Basis.GenLine
import Verif.Basis.GenTria
import Verif.Basis.GenTet
import Verif.Basis.GenTetDer1
import Verif.Basis.GenTetDer2
import Verif.Basis.GenTetDer3
import Verif.Basis.Kron
import Verif.Basis.Spec
import Verif.Basis.Check
import Verif.Basis.CheckDer1
import Verif.Basis.CheckDer2
import Verif.Basis.CheckDer3
import Verif.Basis.Orth
import Verif.Basis.Model
import Verif.Basis.Props
import Verif.Quad.Nodes
import Verif.Quad.Exists
import Verif.Proj.Family
import Verif.Proj.Points
import Verif.Proj.Orth
import Verif.Proj.Span
import Verif.Proj.Model
import Verif.Proj.Table
import Verif.Proj.Steps
import Verif.Proj.Init
import Verif.Proj.Props
import Verif.Proj.Example
import Verif.Gen.Model
import Verif.Gen.Basis
import Verif.Gen.Stiff
import Verif.Gen.Store
import Verif.Gen.Pred
import Verif.Gen.Wave
import Verif.Gen.Props
import Verif.Gen.Star
import Verif.Gen.Example
import Verif.Flux.Model
import Verif.Flux.Trace
import Verif.Flux.Store
import Verif.Flux.Surf
import Verif.Flux.Props
import Verif.Flux.Gauss
import Verif.Flux.Example
import Verif.Face.Geom
import Verif.Face.Mesh
import Verif.Face.Example
import Verif.Fs.Model
import Verif.Fs.Props
import Verif.Fs.Godunov
import Verif.Fs.Example
import Verif.Step.Model
import Verif.Step.Weak
import Verif.Step.Modes
import Verif.Step.Elastic
import Verif.Step.Props
import Verif.Step.Exact
import Verif.Step.Mesh
import Verif.Step.MeshProps
import Verif.Step.Example
import Verif.Cons.Swap
import Verif.Cons.Test
import Verif.Cons.Elem
import Verif.Cons.Mesh
import Verif.Cons.Geo
import Verif.Cons.Side
import Verif.Cons.Props
import Verif.Cons.Example
import Verif.Fused.Kern
import Verif.Fused.Model
import Verif.Fused.Lines
import Verif.Fused.Pats
import Verif.Fused.Setup
import Verif.Fused.Setup2
import Verif.Fused.Eq
import Verif.Fused.EqVol
import Verif.Fused.EqSurf
import Verif.Fused.Step
import Verif.Fused.Props
import Verif.Fused.Example
import Verif.Single.Props
import Verif.Single.Example
import Verif.Rate.Model
import Verif.Rate.Terms
import Verif.Rate.Event
import Verif.Rate.Spec
import Verif.Rate.Run
import Verif.Rate.Total
import Verif.Rate.Cons
import Verif.Rate.Schedule
import Verif.Rate.Solve
import Verif.Rate.Exact
import Verif.Rate.Example
import Verif.Work.Props
import Verif.Work.Example
import Verif.Work.Results
import Verif.Work.SimExample
import Verif.Fused.Run
import Verif.Fused.RunExample
import Verif.Advection.Solvers
import Verif.Advection.SolversProps
import Verif.Advection.C107
import Verif.Advection.Kernels
import Verif.Advection.KernelProps
import Verif.Advection.Star
import Verif.Advection.Weak
import Verif.Advection.Shift
import Verif.Advection.Step
import Verif.Advection.C108
import Verif.Advection.C109
import Verif.Advection.Example
import Verif.Advection.Setup
import Verif.Advection.C110
import Verif.Advection.ExampleSetup
import Verif.Advection.Cfl
import Verif.Swe.Cfl
import Verif.Mesh.SetTypes
import Verif.Mesh.Domain
import Verif.Visco.Model
import Verif.Visco.C111
import Verif.Visco.C112
import Verif.EdgeV.InDia
import Verif.EdgeV.Refine
import Verif.EdgeV.Centroid
import Verif.EdgeV.GridExpr
import Verif.EdgeV.Bath
