# Formal model of 3343/edge in Lean 4 — design

`/verif/lean/Verif/` holds a Lean 4 model of selected parts of 3343/edge (source text in `/repo`) and
theorems about it.  `/verif/properties.jsonl` lists the English properties, `/verif/MANIFEST.json` maps each
to theorem names, `/verif/seeded/LOG.jsonl` records the mutation tests of the theorems.

## How the code is modelled

* Integers: C++ unsigned/size_t counters are `Nat` unless wrap-around is the subject of a property (then the
  wrap is modelled explicitly with `% 2^16`).
* Floating point: `real_base`/`double` is idealised by an exact ordered field (`ℚ`, or `ℝ` where a square root
  is taken).  Rounding is *not* modelled; every theorem on such values is about exact arithmetic.
* Arrays: `List` or functions from index; writes return the new value.  Out-of-range accesses, failed
  `EDGE_CHECK`s and `EDGE_LOG_FATAL` are distinct outcomes (`none`, an `abort` flag or an `Except`), never a default value.
* Threads: a state machine whose actions interleave arbitrarily (sequential consistency, as assumed by the
  code's `volatile` + `omp flush` protocol).  The scheduler is a program counter over guarded instructions that
  are copied one by one from `man_sched.inc`; workers and the communication thread step in between.
* MPI: requests complete at arbitrary later times; message contents only where a property is about them.
* Each definition cites file and lines it models and states simplifications.

## Layout of the Lean files

`Verif/<Area>/Model.lean` (definitions), `.../Lemmas.lean` (helpers), `.../Spec.lean` (small independent
specification, where needed) and `.../Props.lean` (the property theorems with non-vacuity examples).

## Properties: model and proof method (plan)

| id | model | proof |
|----|-------|-------|
| C01 | `TimeGroupStatic` setUp/setDt/updateTsInfo over ℚ | closed form of covered time by induction over steps |
| C02 | same | case split full/sync step; remainder < dtMax |
| C03 | same, two groups with common nTgs | closed form + algebra |
| C04 | 16-bit multiplier | positive for id < 16, negation with witness for id ≥ 16 |
| C05 | scheduler machine (seismic `man_sched.inc`, Manager, Shared status table) | inductive invariant over all actions |
| C06 | same | corollary of invariant |
| C07 | same; failed check = `abort` flag | invariant: abort never set |
| C08 | same; fairness over infinite runs | measure bounded + some action enabled ⇒ fair run finishes |
| C09 | same with per-worker execution history counters | invariant |
| C10 | same with request states | invariant |
| C11 | `regWrkRgn`, `getWrkTd` on lists | sortedness + find? |
| C12 | `numaInit` arithmetic | omega / induction |
| C13 | `balanceWrkRgn` over ℚ | sums of sizes, termination of both loops |
| C14 | `resolveSpEn` | count over prefix |
| C15 | `Distributed::init` offsets | prefix sums |
| C16 | tags, sizes | arithmetic |
| C17 | `Distributed::min` over list of ranks | minimum of bids |
| C18 | `MpiRemix` request table, history of calls | invariant |
| C19 | `checkSendTgLt/checkRecvTgLt` | decision logic |
| C20 | `Gaspi::finSends` compares pointers: negation | witness |
| C59 | buffer indices of `Distributed`, `Gaspi`, `steps.inc` | arithmetic; negation for two buffers |
| C60 | `Distributed::syncData` on all ranks, MPI matching | loop invariants, uniqueness of tags |
| C21–C26 | `SparseEntities.hpp` | induction over entity lists |
| C27, C28 | `EntityLayout`, `Dynamic::flex` | prefix sums |
| C29–C31 | `edge_v` Groups | induction; fixpoint argument for normalisation |
| C32–C36 | `edge_v` Partition / Communication | sorting lemmas, list folds |
| C61–C63 | `edge_v` Groups, Cfl: loads, CFL steps, number of changes | loops over ℚ; negation for C63 |
| C64–C68 | `edge_v` Communication, composed with `Distributed::init` | list folds, uniqueness of mirrored messages |
| C37–C40 | `edge_v` Mesh, Grid, geom | lists, polynomial identities |
| C77–C81 | `edge_v` Mesh constructor, periodic boundaries, ids of neighbours | loop invariants, runs of equal sorted faces, permutations, determinant signs |
| C41, C82 | `edge_cut` Extrude: triangles of all levels, sides, bottom, sizes, number of steps | strips of cells tile rectangles; sums of antisymmetric functions over edges; negations for small grids and uneven spacings |
| C83, C84 | several ranks, each with the scheduler model, and messages per channel in order; message contents as history | invariant of the message contents; waiting groups of a stuck network form chains of decreasing potential (predicted time of the send elements) |
| C85 | `EdgeV::setLtsTypes` of the library on each rank's data written by EDGE-V | loop invariants, counting of elements per group, composition with C64–C68 |
| C86, C87 | loop over synchronisation points of `main.cpp`, settings' checks, wave field output | loop invariant over ℚ with step at least the tolerance; scatter lemmas |
| C88 | shape functions, `Mappings` (reference to physical and back, Jacobian, faces), reference elements, `QuadratureEval::faces` | identities over a field by case analysis over types, faces and vertices; composition with C79 |
| C89 | `Geom::inside`, `Geom::closestPoint` for boxes, location of receivers and point sources | determinants of faces are barycentric distances times the determinant of the Jacobian; case analysis on the flags; composition with C40 and C88 |
| C90 | `QuadraturePoints`: rules for lines, rectangles, triangles, cuboids and tetrahedra | loops as lists; sums over products of rules; monomials, reduction of triangles and tetrahedra by affine maps and integrals of `s^a (1-s)^b` |
| C91 | `Basis::evalBasis`, generated basis functions and derivatives | text of the generated files as expressions; comparison with the products of Jacobi polynomials by one evaluation at large integers per function, with a proof that this decides equality of rational functions; derivatives of polynomials; orthogonality by moments (beta integrals, differences of binomial coefficients) for all degrees |
| C92 | `InitialDofs`, `Basis` (constructor, projections, point values, inverse mass matrix) | functional model with one memory per thread and an arbitrary order of (thread, element); discrete orthogonality from C90 and C91; completeness of the basis by counting dimensions; invariants over elements, points, runs and quantities |
| C93 | generated basis and matrices, `Basis::getStiffMm1Dense`, `storeStiffTDense`, `storeStiffDense`, `initStar`, `ck` | formulas of the generator as polynomials (`MvPolynomial`), equal to the code's functions; linearity and orthogonality give exact differentiation; degrees give the zero blocks; Taylor series of the kernel (C58) is a solution; inverse map (C88) and star matrices (C71) give physical coordinates |
| C94 | generated flux matrices, `Basis::getFluxDense`, `SurfInt::storeFluxDense`, `SurfIntVanilla::local`/`neigh`, loop of `AderDg::neigh` | traces of the element's functions are polynomials of the degree of the face's basis, so that the two projections are exact (Parseval); degrees of orientations; copying loops; combined with C75 (kernels) and C88 (points of faces) |
| C95 | `Mesh::getNormalsFa`, `getTangentsFa`, `getAreasFa`, `getCentroidsEl` with `Line`, `Tria3`, `Generic::centroid` | vector identities over the reals; the normal point is the remaining vertex of the first element (C81), so that the scalar product which decides on the sign is a determinant; the rows of the Jacobian times the cross product of two edges are computed for all faces and all orders of vertices |
| C96 | `AderDgInit::initFs` with `getElVeCrds`, `evalJac`, `det` | imperative model over one slot per element and face, faces in an arbitrary order; every face sets the slots of its elements and keeps all others; flux solvers by C69; connectivity of the mesh by C80 |
| C97 | `AderDg::local` and `AderDg::neigh` of all elements, composed of the kernels of C57, C74 and C75, with the matrices of C93, C94 and the flux solvers of C96 | a time step in terms of modes; integration by parts turns the weak form with consistent fluxes into the strong one, in which prediction and update coincide (Taylor series of a solution of a linear system whose derivatives end after order steps); jumps vanish at the faces by the spectral form of the flux solvers (C69) and Nanson's formula (C95); induction over the steps, with a region which loses one layer per step |
| C98 | the model of C97 | test the update of an element with a rigid velocity field (modes of degree at most one); the volume term vanishes because the stress is symmetric and the field's gradient antisymmetric; the fluxes are area times the traction of the middle state (C69), which is zero at free surfaces, and unique and odd under exchange of the sides at all other faces; sum over the involution which pairs the sides of the faces |
| C99 | `TimePredFused`, `VolIntFused`, `SurfIntFused` (constructors and kernels), `FakeMats`, sparse star and source matrices, `MmXsmmFused` tables of kernels; LIBXSMM's packed sparse kernels as specified by their pattern | every sparse kernel multiplies with the dense matrix its pattern and values stand for (lines of CSC and CSR); each fused kernel call then computes the array of the dense call of the vanilla kernel, up to rows of the scratch memory which are not read or multiplied by zero; loops step by step, then elements, meshes and any number of time steps |
| C100, C101, C102 | `AderDg::local` and `AderDg::neigh` of all elements with their buffers for faster and slower neighbours, as a sequence of updates of elements with counters per element (`Verif/Rate`) | invariant over the sequence: the buffers hold the time integrals of the last step, of the last two steps, or of the first half of the last step, in terms of the modes before each step; C100: the time integrals both sides of a face take add up to the same between synchronizations, then the argument of C98 with the sums; C101: induction over the lengths of two sequences, the last update of an element reads the same in both; C102: induction over time, time integrals of a solution add up, then the argument of C97 |
| C103 | Work packages on top of the scheduler; a history variable lists the updates of the elements. Invariant: an element whose package is not in progress has been updated as often as the package was executed, one whose package is in progress once more if it is no longer in the rest of the package. With C05, C06 and C09 the list has the rhythm which C100-C102 assume, and is complete when the interval is finished. `Shares` (each element in one package) follows from C13 for the registrations of `setup.inc` and any load balancing. |
| C104 | Composition: C01 and C03 give the time steps (halves of those of the next group, sum equal to the duration), C13 and C103 the sequence of updates, C85 the bits; then C100 (momentum, angular momentum) and C102 (exactness) hold for the simulation without assumptions on schedule, time steps or bits. |
| C105 | `TimePredSingle`, `VolIntSingle`, `SurfIntSingle` (generated kernels, tables of kernels, calls), `MmXsmmSingle`; LIBXSMM's column-major dense kernels as specified | A column-major product of flipped matrices is the row-major product of `Matrix.h`; lookups in the kernel tables are computed for all orders and mechanisms; then function by function up to elements, runs with local time stepping and simulations (C104) |
| C106 | Updates of elements with the fused kernels and sparse star matrices in runs with local time stepping (`Fused/Run.lean`: `execF`, `runSyncF`) | Simulation relation: states are equal except for the scratch memory; kept by each update (C99) and by the synchronization, then induction over the updates and the intervals |
| C107 | `common::setupSolvers` of the advection equation: search of the local faces, speeds of both sides (also through the communication structure), writes and scaling of the four solvers of a face (Verif/Advection/Solvers.lean); the determinants of the elements are inputs | table of all solvers as an invariant of the loop over the faces (`face_spec`, `setup_spec`), from it the upwind formula, conservation and uniform flow |
| C108 | kernels of the advection equation (time prediction, volume and surface integrals), star matrices, `local` and `neigh` of an element and time steps of a mesh (Verif/Advection/{Kernels,Star}.lean) | loop invariants for the kernels (`localEl_spec`, `neighEl_spec`); the scalar equation is embedded as one quantity of the nine-quantity system, whose theory (C93, C94, C95) gives the weak form; translation because the derivative of the prediction along the characteristics is zero (`pred_shift`) |
| C109 | as C108; mass is the sum of the elements' integrals | weak form with the constant test function; the two sides of a face cancel by a change of variables on the reference face (`through_pair`); induction over the time steps |
| C110 | composition of C107, C108 and C109 for meshes with the code's star matrices and solvers (`SetupOk`) | scaled normals by C95; the upwind solvers of a face add up to the normal velocity, unless it is an inflow boundary; induction over the time steps with the set of elements not reached from inflow boundaries |
| C111 | `ViscoElasticity::{frequencies,elasticLame,anelasticCoeffPs,anelasticCoeffLame,src}` over the reals, the fit as a parameter (`Verif/Visco`); specification: plane waves which solve the equations of motion with memory variables | the loop computes real and imaginary part of the relative modulus (induction over the mechanisms); dispersion relation of the amplitudes; real part of the complex wave number |
| C112 | exchange of the parameters, constructor of `AderDg` and selection of the right element's parameters (`Verif/Visco/C112.lean`) | unfolding; witness with one mechanism and an exact fit for the refutation |
| C113 | `FiniteVolume::{computeCflTimeStep,getTimeStepStatistics}` (`Verif/Swe/Cfl.lean`) | minimum over nested loops by induction; witness for the refutation |
| C114 | `advection::common::{computeTimeStep,getTimeStepStatistics}` (`Verif/Advection/Cfl.lean`) | minimum over the elements by induction; inequality of Cauchy and Schwarz |
| C115 | `SparseTypes::set` (`Verif/Mesh/SetTypes.lean`) | induction over vertices, domains and entities; bits by `testBit` |
| C116 | `HalfSpace` and `Domain` (`Verif/Mesh/Domain.lean`) | projection to the hyperplane; inequality of Cauchy and Schwarz; convex combinations |
| C117 | `Tria3::{area,inDiameter}`, `Tet4::{volume,inDiameter}`, `Quad4r`/`Hex8r::{distMax,inDiameter}`, `Hex8r::volume` of edge_v (`EdgeV/InDia`). Specification: the simplex as the set of convex combinations of its vertices, the box as a product of intervals, balls by the Euclidean distance. | Barycentric coordinates are affine with the scaled face normals as gradients; Cauchy-Schwarz for the ball which fits, the sum of the coordinates for the bound. |
| C118 | `Refinement::init` of edge_v with the threads of the parallel loop; the expression is a function on the variables of a thread (`EdgeV/Refine`). Specification: wave length over edges per wave length. | Induction over the elements of a thread, the threads, the vertices and the elements; a witness with two schedules for expressions which leave variables unassigned. |
| C119 | `Mesh::getCentroidsEl`, `Generic::centroid` of edge_v on memory of arbitrary content (`EdgeV/Centroid`). Specification: the differences to the vertices cancel. | Induction over elements and vertices; the centroid is right exactly for zero memory. |
| C120 | `GridExpression::init` with the threads of its loop, and its use in main of edge_v (`EdgeV/GridExpr`). Specification: the expression at the point with the value of the grid at the same point. | Induction over the points of a thread and the threads; witnesses for centroid-based time steps. |
| C121 | `Model::getElAve`, the dry tolerance in main and its default value in `Config` of edge_v (`EdgeV/Bath`). Specification: the mean over the vertices and the documented effect of the tolerance. | Induction over elements and vertices, cases on the mean; general counterexamples for low land and the default. |
| C42, C43 | `Receivers` | refinement to a log; induction over steps |
| C44 | `Series::integrate` over ℝ | negation + partial exactness |
| C45 | `PointSources` maps | list lemmas |
| C46, C47 | SWE solvers over an ordered field / ℝ | algebra |
| C48, C49 | FrictionLaws | ordered-field algebra; negation for C49 |
| C50, C51, C52, C69–C71 | generated matrices, flux solvers, `linalg::Matrix` | Rankine-Hugoniot conditions as specification; rotation invariance; `field_simp`/`ring` |
| C53, C54 | sparse formats, dense kernels | list induction |
| C55, C56 | sub-cell limiter detection and steering | decision logic, induction |
| C57, C58 | ADER-DG time buffers, time prediction | algebra |

## Trusted base

* Lean 4.33.0 kernel; axioms: at most `propext`, `Classical.choice`, `Quot.sound`.
* The reading of the C++ text (nothing was compiled or executed).
* The idealisations above (exact arithmetic, sequential consistency, MPI/OpenMP semantics).

## Modelled code, area by area

* `Verif/Time`: `time/TimeGroupStatic.cpp` (setUp, setDt, updateTsInfo, counters), multiplier of a group.
* `Verif/Sched`: `impl/seismic/inc/time/man_sched.inc`, `time/Manager.cpp` (dependencies, compute loop, simulate), the
  status table of `parallel/Shared.cpp`, as a state machine with interleaved workers and communication.
* `Verif/Sparse`: `data/SparseEntities.hpp`.
* `Verif/Shared`: `parallel/Shared.cpp` (work regions, priorities, status, NUMA initialisation), the load balancing
  (`parallel/LoadBalancing`), sparse offsets of work packages.
* `Verif/Dist`: `parallel/Distributed.cpp`, `parallel/MpiRemix.cpp`, the counters and buffer selection of
  `parallel/Gaspi.cpp` (queues and segment registration are not modelled).
* `Verif/Data`: `data/EntityLayout.cpp`, `Dynamic::flex` of `data/Dynamic.h` (allocation itself is not modelled),
  `DataLayout::adj` of `data/DataLayout.hpp`, `SparseEntities::ptToEn` (the geometric distance is a parameter).
* `Verif/EdgeV`: `tools/edge_v/src/time/Groups.cpp`, `time/Cfl.cpp`, `mesh/Partition.cpp` (priorities, dual graph,
  weights, sizes; METIS itself is not modelled), `mesh/Communication.cpp` (all of it). `EndToEnd.lean` composes the
  communication structures with `Distributed::init` of the solver.
* `Verif/Linalg`: `linalg/Matrix.h` (determinants, inverses, dense products, transposes, coordinate/CSR/CSC formats,
  fill-in, non-zero block; not the printing functions and the file formats). Reals are an arbitrary ordered field.

- **Elastic setup** (`Seismic/*`): the generated coefficient files `src/impl/seismic/generated/*.inc` (transcribed
  mechanically into `Generated.lean`), `common.hpp` (rotations, Jacobians, wave speeds), `Elasticity.cpp` (`star`,
  `setupFlMid`, `setupFrMid`, `fs`), `ViscoElasticity.cpp` (`fsMid`, `fs`), `AderDgInit.hpp` (`setUpFs`). Real numbers
  instead of `double`; a zero denominator is the outcome `none`. Not modelled: rounding, the scaling with face area over
  volume and the loop over faces in `initFs`.

* `Verif/Swe/Model.lean`: `Fwave::{evs,waveStrengths,nus,nusN}` over ℝ (square roots of negative numbers and divisions by
  zero are `none`), `FiniteVolume::{qtsLr,nusN,update}` for a mesh given by its adjacency, normals, areas and volumes. The
  loops over faces and elements write disjoint entries and are modelled as functions on faces and elements. Fused runs are
  independent of each other; one is modelled. `computeCflTimeStep` and `getTimeStepStatistics` are modelled separately in `Swe/Cfl` (C113).

* `Verif/Seismic/Friction.lean`: `FrictionLaws< 2 >::linSlipWeak`, `FrictionLaws< 3 >::linSlipWeak` and `perturb` over ℝ,
  for one sub-face and one fused run. The specification is Coulomb friction with a slip-weakening coefficient; histories
  are arbitrary sequences of time steps and incoming middle states.

- **Internal boundaries** (`Verif/Seismic/RotMat.lean`, `IntBnd.lean`, `IntBndProps.lean`, `IntBndProps3.lean`; C72, C73, C48):
  `GeomTs<3>::rotMat`, `normalize3`, `cross3` (Geom.hpp:141-190, 941-994), the setup of the internal boundary solvers in 2D and
  3D (InternalBoundary.hpp:494-606, 738-920), `netUpdates` (188-285) with the slip weakening law as perturbation, and the
  setup of the law (RuptureInit.hpp:140-296). Over the reals, one face, one sub-face and one fused run at a time. Dynamic
  rupture is only reached from the unit tests in this version of the code. The specification is `IsFault`: the relation of a
  frictional Riemann problem, stated with impedances and jumps in physical coordinates, without the frame of the face.
* **Sources** (`Verif/Sources`): `Series::integrate` (Series.hpp:59-134) over the reals, compared with the Lebesgue integral of
  the linear interpolant, and the point sources (PointSources.hpp): `getAcDu`, every permutation the unstable `std::sort` may
  return, `elSpPs`, offsets, samples, scalings, `init` and `apply`. One fused run. Reading of HDF5 files, localisation of the
  sources in the mesh and the evaluation of the basis are inputs; the specification is `Describes` (the content of the file
  per source) and `rank` (position of an element among the source elements).
* ADER-DG kernels (`Verif/Dg`): the vanilla kernels of the seismic solver (time prediction, evaluation and integration of the
  prediction, volume integration, local and neighboring surface integration, scatter to the relaxation mechanisms) for arbitrary
  sizes, and the parts of `AderDg::local` and `AderDg::neigh` which keep summed and half integrals for local time stepping, fill
  messages and select the data of a face. Specifications: `rhsE`, `rhsA` (equations), `derivs` (derivatives of their solution),
  `taylor`, `taylorInt`, and interval integrals of Mathlib over the reals. Proved by invariants of the loops (`loop3_spec`,
  matrix kernels through C54). Not modelled: kernels of LIBXSMM (see `Verif/Fused` and `Verif/Single`), receivers and point sources inside of the
  element loop (own areas), prefetching, rounding.
* **Receivers** (`Verif/Recv`; C42, C43): `Receivers::{init,getEnRecv,getRecvTimeRel,writeRecvAll,flush,flushAll,flushIf}`
  (Receivers.cpp:33-329) and the loop over receivers in `AderDg::local` (AderDg.hpp:353, 475-494). Times and values are elements of
  an ordered field, a file is the list of its rows, the projection of receivers to elements and the evaluation of the basis are
  inputs. Histories are arbitrary lists of calls (C42) or of local steps of ranges of elements and flushes (C43). The specification
  is `sample`, `writesTo`, `stepsOf` and `Consecutive`. Concurrency of flushes and local steps is stated with the scheduler model of
  `Verif/Sched` (`Race.lean`). Headers, formatting of numbers and file errors are not modelled.
* **Sub-cell limiter** (`Verif/Sc`; C55, C56, C76): `Detections::{dmpVe,dmpFa}`, `Kernels::{scExtrema, replacement part of
  scatterReplace(Fa), gatherSurfDofs}`, `Steering`. Values are elements of a linearly ordered field, minimum and maximum of one entry
  are a pair. C56 ranges over histories: buffers carry the number of the step which wrote them. The limiter's main routine
  `Limiter::aPost` aborts at this commit ("missing implementation", Limiter.hpp:429) and is not modelled; neither are the matrix
  products (C54), internal boundaries of sub-cells and super-cells.
* **Mesh construction** (`Verif/Mesh`; C37, C39, C40, C77-C81): the constructor `Mesh::Mesh` from the vertices of the elements and their
  faces (Mesh.cpp:388-649) with `addSparseTypeEn`, `setPeriodicBnds`, `normOrder`, `Generic::{sortLex,getFaIdsAd}`, `Tria3::normVesFas`,
  `Tet4::{normVesFas,getVeIdsAd}`, `getAddEntry`. `std::sort` is a parameter of which only "sorted permutation" is known; coordinates
  are elements of an ordered field. Specifications: `Conforming`, `ConnOk`, `FacesOf`, `NbPer`, `MeshSpec`, `HasVes`, `groupsOf`.
  Reading of files by Gmsh, quadrilaterals and hexahedrons, geometric quantities are not modelled here (volumes and diameters: `EdgeV/InDia`, centroids: `EdgeV/Centroid`);
  the faces of the elements are inputs, which must be the faces of the simplices (`FacesOf`).
* **Gridded data** (`Verif/EdgeV/Grid.lean`; C38): `Grid::init` (Grid.cpp:38-86); `std::lower_bound` by its specification.

* `Verif/Cut/`: `tools/edge_cut/src/mesh/Extrude.cpp`. Coordinates are elements of an ordered field; reading of input and the text
  written to files are not modelled (a file is its points, announced number and triangles). The level of the grid is at most what a
  16-bit refinement ratio holds, as in the code.

* `Verif/Sched` (`Net*.lean`): distributed runs of the scheduler model: ranks, pairing of channels, order of messages per channel, completion of
  receives after the send. The message layer itself (MPI) is assumed to keep the order of messages of one channel; the ranks start an
  interval together.

* `Verif/Lts/`: `src/mesh/EdgeV.cpp:setLtsTypes,setSpTypes` with the constants of `src/dg/const_ader.inc` as 64-bit words. The local mesh of a
  rank is specified (`LocalMesh`): neighbours of the global mesh with the rank's offset subtracted, none for other ranks.

* `Verif/Run/`: the time loop of `src/main.cpp:313-397` with the checks of `src/io/Config.cpp:304-389` (exact arithmetic), the selection of
  printed elements (`src/io/WaveField.cpp:51-56`) and the data handed to the VisIt writer (`src/io/Vtk.cpp`).
* `src/linalg/Mappings.hpp`, `src/linalg/Shape.hpp`, `C_REF_ELEMENT` of `src/constants.hpp`, `QuadratureEval::faces`
  (`Verif/Map/Model.lean`): all functions but `map3dQuad4` and `mapFaceCoords`, which no other code calls; `map2dLine` is in `Verif/Quad`.
  Numbers are those of a field. The dummy of `QuadratureEval` for lines and the evaluated basis are not modelled.

* `src/linalg/Geom.hpp`: `inside` and `closestPoint` for lines, rectangles and cuboids (`Verif/Map/Inside.lean`); the projection to
  triangles and tetrahedra is done by a library and not modelled.

* **Quadrature points** (`Verif/Quad`; C90): `src/dg/QuadraturePoints.h`, all functions. The one-dimensional rule of the library
  FastGL is a parameter with the assumption `Gauss` (exactness up to degree `2 n - 1`). Output vectors are empty at the call (the
  functions for rectangles and cuboids append, the others resize). Indices are natural numbers; the code's index of points is an
  `unsigned short`.
* **Basis functions** (`Verif/Basis`; C91): `src/dg/Basis.cpp` 233-471 and all files `src/dg/generated/basis_*.inc`. The right-hand
  sides are included as text: the notation `exs%` (`Verif/Basis/Expr.lean`) parses the C++ expressions to the inductive type `Ex`,
  whose evaluation is the meaning in the model; that the notation reads the text as C++ does (precedence, `std::pow` with literal
  exponents, literals `n.0L`) is part of the reading of the model, like every other definition. `initMassMatrix` reads matrices which
  a separate tool generates; these are not modelled.

* **Projection of initial values** (`Verif/Proj`; C92): `src/setups/InitialDofs.hpp` 80-367, `src/dg/Basis.cpp` 34-231. An expression is any transformation of the bound coordinates and quantities (exprtk is not
  modelled); the generated mass matrix is an argument, assumed to hold the integrals; the stiffness matrices of the same files are not
  part of it. `Verif/Quad/Exists` shows that rules of Gauss exist for every number of points, so that C90 and C92 are not vacuous.

* **Generated matrices** (`Verif/Gen`; C93): `tools/edge_pre/edge_pre/dg/basis`, `tools/edge_pre/edge_pre/int/Matrices.py` (mass and stiffness), `io/ArrStr.py` (order of the
  numbers), `Basis::getStiffMm1Dense`, `storeStiffTDense`, `storeStiffDense`, `initStar`. Symbolic algebra of sympy is modelled by polynomials, integrals over the reference elements and
  inverses of matrices over the reals; the rounding of the printed numbers is not modelled. C93 discharges the hypotheses on stiffness and mass matrices of C74 and C92.
* **Flux matrices** (`Verif/Flux`; C94): `tools/edge_pre/edge_pre/int/Matrices.py` (flux), `edge_pre.py:520-565`, `types/*.py` (`faToEl`, `faToFa`), `src/dg/Basis.h:375-401`,
  `src/dg/SurfInt.hpp:75-178`. Same conventions as for the generated matrices; line elements are not modelled. C94 discharges the hypotheses on flux matrices of C75.
* **Geometry of faces** (`Verif/Face`; C95): `tools/edge_v/src/mesh/Mesh.cpp:676-840`, `geom/Geom.cpp:36-122`, `geom/Line.cpp`, `geom/Tria3.cpp:32-140`, `geom/Generic.cpp:27-41`. Real numbers;
  the parallel loops over faces are one entry per face. Quadrilaterals as faces share the code of triangles, hexahedral meshes are not covered.
* **Set-up of flux solvers** (`Verif/Fs`; C96): `src/impl/seismic/solvers/AderDgInit.hpp:394-665`. The values which mark missing elements, ids and solvers are `none`; the face types are
  given as booleans; the iterations of the parallel loop over faces are executed one after the other in an arbitrary order.
* **Time steps of a mesh** (`Verif/Step`, `Verif/Cons`; C97, C98): `src/impl/seismic/solvers/AderDg.hpp:363-520, 572-719` for all elements of a mesh with a single time group, without relaxation
  mechanisms, sources, receivers and messages; the single element (`stepEl`) also with buffers of local time stepping.
* Fused kernels (`Verif/Fused`): constructors of `TimePredFused`, `VolIntFused` and `SurfIntFused` with the conversion of the dense matrices to CSC (tolerance, fill-in
  for QFMA, bounds of the recursive sizes), `FakeMats`, the kernel tables of `MmXsmmFused`, and the calls of the kernels for time prediction, volume, local and neighbouring
  surface integration, with and without relaxation mechanisms; sparse star matrices (elastic, anelastic) and source matrices. Specifications: `Simplex` (sizes), `Exact`,
  `Copies`, `SparseAll` (a sparse array holds the entries of a dense one), and the vanilla kernels of C74 and C75. Trusted: a packed sparse kernel generated by LIBXSMM
  computes C = beta C + A B for all fused simulations with the pattern it was generated for, and reads and writes nothing else. Not modelled: generation of machine code,
  prefetches, rounding, quadrilaterals and hexahedrons (whose recursive sizes do not decrease).
* **Local time stepping of a mesh** (`Verif/Rate`; C100, C101, C102): `src/impl/seismic/solvers/AderDg.hpp:363-520, 572-719` for all elements of a mesh with any time groups, on one partition, without relaxation
  mechanisms, sources, receivers, rupture. The order of the updates is any sequence in which a neighboring update finds exactly the local updates it needs (`Allowed`), the property which C05 and C06 prove of the scheduler. The bits of
  the time relations are assumed as C85 proves them. Updates are atomic: concurrent updates do not share data which is written (C06).
* Updates of the elements by the threads of a rank (`Verif/Work`): the loop of a worker (src/time/Manager.cpp:97-200) with the elements of its work package, on top of the model of the scheduler (`Verif/Sched`); registrations of the work regions (src/impl/seismic/setup.inc:334-396). One element is updated per action, in any interleaving with the other threads. An update of an element is atomic: that concurrent updates do not touch the same memory is C05 and C06. Point sources (regions 2 and 3), receivers and remote elements are left out.
* Simulations on one rank (`Verif/Work/Sim.lean`, `Verif/Work/Results.lean`): `Manager::simulate` (src/time/Manager.cpp:198-239) as composition of the models of the time groups (`Verif/Time`), the work packages (`Verif/Shared`), the threads (`Verif/Sched`, `Verif/Work`), the sparse types (`Verif/Lts`) and the updates of the elements (`Verif/Rate`).
* Kernels for single simulations (`Verif/Single`): `generateKernels` and the calls of `TimePredSingle`, `VolIntSingle` and `SurfIntSingle`, the tables of `MmXsmmSingle`, updates of elements and runs with
  these kernels. Not modelled: LIBXSMM itself (documented function of its dense kernels), prefetches, pointer arithmetic on null pointers passed for prefetching.
* Advection (`Verif/Advection`): `setupSolvers` of `src/impl/advection/solvers/common.hpp` (C107); `setupStarM`, `local` and `neigh` of `solvers/AderDg.hpp` with the kernels `TimePred`, `VolInt` and `SurfInt` (C108, C109, C110). Not modelled: MPI buffers, receivers, time step statistics.
* **Viscoelastic materials** (`Verif/Visco`; C111, C112): `src/impl/seismic/setups/ViscoElasticity.{h,cpp}` (`frequencies`, `elasticLame`, `anelasticCoeffPs`, `anelasticCoeffLame`, non-zero entries of
  `src`), `src/impl/seismic/solvers/AderDgInit.hpp:95-117, 485-505`, `src/impl/seismic/setup.inc:248-262`. Real numbers; the singular value decomposition of Eigen is a parameter. Not modelled: the
  search of the communication face, memory management.
* **Time steps of the shallow water and advection solvers** (`Verif/Swe/Cfl.lean`, `Verif/Advection/Cfl.lean`; C113, C114): the minimum; average and maximum, which are only printed, are not modelled.
* **Domains** (`Verif/Mesh/SetTypes.lean`, `Verif/Mesh/Domain.lean`; C115, C116): `src/mesh/SparseTypes.hpp`, `src/linalg/{HalfSpace,Domain}.hpp`, without the conversion to strings.
* edge_v in-diameters: `EdgeV/InDia` (real numbers instead of floating point numbers).
* edge_v refinement: `EdgeV/Refine` (exact numbers; parsing of expressions by ExprTk is not modelled, an expression is an arbitrary function on its variables).
* edge_v centroids: `EdgeV/Centroid` (exact numbers; reading uninitialised memory, undefined in C++, is modelled as reading an arbitrary number).
* edge_v gridded velocity models: `EdgeV/GridExpr` (the lookup in the grid is that of `EdgeV/Grid`, here a function of the point; an expression is an arbitrary function on its variables).
* edge_v bathymetry: `EdgeV/Bath` (exact numbers; of pugixml only that `as_double` of a missing node is 0).

Everything not named here is not modelled.

## Findings: properties which are false of the code

* C04: the time step multiplier of a group is a 16-bit value; it wraps for group ids of 16 and more.
* C24: `linkSpAdjSst` (`data/SparseEntities.hpp`) leaves the slots of undefined adjacencies unwritten.
* C20: `Gaspi::finSends` (`parallel/Gaspi.cpp:238`) compares the addresses of two arrays instead of the counters.
* C59: with two communication buffers, `impl/seismic/steps.inc:57` selects the receive pointers by `(u/2)%2`; the data
  of step `u` is in the buffer of pointer set `u%4`.
* C63: `Groups::normalizeTs` (`edge_v`) counts changes, not changed elements; one element can count several times.
* C33: `Partition::getWeights` writes edge weights in the order of the faces, `getDualGraph` sorts the neighbours; weights
  are attached to the wrong neighbours if the faces do not list them in ascending order.
* C34: `Partition::nPaEls` never writes the entries of trailing empty partitions.
* C36 (`C36_gap`): with an empty partition between used ones the derivation of the communication structure aborts.
* C64 (`C64_twoFaces`): if two elements share two faces (e.g. small periodic meshes), a receive message names a face twice.
* C51 (`C51_acoustic3_refuted`): the three-dimensional flux solvers have no acoustic variant; with a vanishing shear
  modulus on one side the coefficients are 0/0 (in 2D there is an acoustic variant; solid-fluid interfaces abort).
* C46 (`C46_gravity_refuted`): `Fwave::nusN` (`impl/swe/solvers/Fwave.hpp:223-225`) does not hand its gravity argument to
  `evs`; the wave speeds are those of the default gravity. Conservation and the lake at rest hold regardless.
* C49 (`C49_direction2_refuted`): in 2D the shear traction of a failing fault gets the sign of the background stress
  `ss0`, not the sign of the total shear stress; if waves reverse the stress, friction accelerates the slip
  (`impl/seismic/solvers/FrictionLaws.hpp:142-146`). In 3D the direction is the one of the total shear stress.
* C48 (`C48_data_refuted`, friction coefficient of fault data): `RuptureInit.hpp:252-293` sets the stresses and the cohesion of a sub-face from
  the fault data but leaves the friction coefficient at the largest floating point number unless a domain contains the face.
  The first evaluation of the law then sees an astronomically large strength. Negation: `C48_data_refuted`; with a domain:
  `C48_init2`, `C48_init3`.
* C44 (`C44_exact_refuted`, `C44_additive_refuted`): an interval which lies strictly between two samples is not integrated
  exactly: `first` is cut to `last`, and the part from the sample to the begin of the interval is removed with the slope of the
  previous sampling interval, or with the value outside of the series for the first one (`linalg/Series.hpp:73-131`).
  `C44_error` states the exact error, second order in the position. Time steps shorter than the sampling distance of a source
  hit this case in nearly all steps. Exact if the interval contains a sample (`C44_exact_partial`).
* C58 (`src/impl/seismic/kernels/TimePred.hpp:149`): `evalTimePrediction` uses `CE_N_ELEMENT_MODES_CK` modes of a derivative even
  with relaxation mechanisms, where the derivatives have contributions in all modes and `integrate` and `ck` use all of them
  (line 189). Values sampled at receivers miss these contributions. `C58_relaxation_refuted`.
* C74 (`src/impl/seismic/kernels/TimePredVanilla.hpp:288`, same in the single and fused kernels): the prediction of the memory
  variables uses `ω (... + a)`, the volume integration (`VolIntVanilla.hpp:236`) `ω (... - a)`. The sign of the relaxation term
  differs, so that the predicted memory variables grow. `C74_relaxation_refuted`.
* C42 (`src/impl/seismic/inc/time/man_sched.inc:164-165`, `src/io/Receivers.cpp:292-329`): `flushIf` is called by the scheduling thread
  for all receivers when the neighbouring update of one group is scheduled. Local steps of groups which are not next to it may be in
  progress and write to the same buffers without synchronisation. With three time groups such a state is reachable
  (`C42_race_refuted`); a sample written between the output of the rows and the reset of the counter is lost
  (`C42_lost_sample_refuted`). At most two groups are safe (`C42_no_race_partial`).
* C78 (`tools/edge_v/src/geom/Generic.cpp:108-114`, `C78_periodic_refuted`): the face id of a neighbour is the first face which leads
  back to the element. With periodic boundaries two elements may share several faces; then the id of the first of them is reported for
  all. Example: a square of two triangles with four periodic sides, which the constructor accepts.
* C38 (`tools/edge_v/src/io/Grid.cpp:48-50`, `C38_size_refuted`): the number of values only has to be a multiple of the number of
  coordinates in each dimension, not the product. With 2x2 coordinates and two values, the value of a point inside the grid is read
  behind the end of the array.
* C41 (`tools/edge_cut/src/mesh/Extrude.cpp:300-303`, `C41_small_refuted`): the constructor accepts grids which are too small for
  the levels of refinement; the written triangles then overlap (3 x 3 points, one level).
* C82 (`tools/edge_cut/src/mesh/Extrude.cpp:314-318`, `C82_refuted`): the smallest spacing in y-direction is computed from the points
  `(l+1)*ratio` and `l` instead of `l*ratio`; with refinement and uneven spacings too few steps in depth are used.
* C85 (`src/mesh/EdgeV.cpp:384-416`): the sparse types of the mesh are `int`s which are sign-extended; a negative type sets all bits of the time
  stepping (`C85_negative_refuted`).
* C86 (`src/main.cpp:335, 383-387`): the setup is written if the interval is smaller than the end time, a later wave field if the interval
  is reached up to the tolerance; for equal ones file 0 is the final state (`C86_file_number_refuted`). `main.cpp:385` passes the
  duration of the step instead of the simulated time to `write`, which ignores it.
* C88 (`src/linalg/Mappings.hpp:572-617`): `phyToRef` accepts rectangles and cuboids which are not parallel to the axes and
  returns a wrong reference point for them (`C88_rotated_refuted`); it aborts for lines.
* C89 (`src/linalg/Geom.hpp:690-699`): the comparisons with the tolerance are all strict; a point whose determinant equals the tolerance is
  neither inside nor on the face (`C89_outside_refuted`). The check of reference coordinates of receivers accepts points outside of
  simplices (`C89_check_refuted`).
* C90 (`src/dg/QuadraturePoints.h:397`): the remark that integrating a constant gives the volume does not hold for tetrahedra and
  one point per dimension: the weights add up to `det/8` instead of `det/6` (`C90_onePoint_refuted`).
* C91 (`src/dg/Basis.cpp:379,431`): for lines the documented request of the derivative (`i_der = 0`) returns the value, and
  `i_der = 1` the derivative (`C91_derLine_refuted`, `C91_derLine_partial`).
* C91 (`src/dg/generated/basis_tria.inc`, `basis_tet.inc`): some functions of triangles and tetrahedra divide by zero at a vertex (and
  for tetrahedra on the edge `y + z = 1`, `x = 0`) although the polynomials are defined there, e.g. for receivers at such points
  (`C91_vertex_refuted`).
* C92 (`src/setups/InitialDofs.hpp:326`): the computation of error norms does not reset the quantities before it evaluates an expression, the
  initialization does (224-227). Quantities which the expression does not set are taken from the previous evaluation, first the largest number:
  with the empty expression the initial values are zero and the maximum norm of their error is the largest number
  (`C92_err_unset_refuted`).
* C95 (`tools/edge_v/src/geom/Generic.cpp:27-41`, `mesh/Mesh.cpp:676-704`): `Generic::centroid` adds the vertices to its output without setting it to zero, and
  `Mesh::getCentroidsEl` passes memory fresh from `new double[]`. The centroids, at which the velocity model is evaluated if `cen_cfl` is set, are wrong by a third
  (a quarter) of the memory's content (`C95_centroids_refuted`).
* C96 (`src/impl/seismic/solvers/AderDgInit.hpp:441-664`): a periodic face whose two elements are the same element (one layer of quadrilaterals or hexahedrons between periodic
  boundaries, which `Mesh::setPeriodicBnds` creates without complaint) is found for the left and for the right side. The solvers of the right side, with the normal pointing
  into the element, overwrite those of the left side, and are scaled twice (`C96_self_refuted`).
* C99 (src/impl/seismic/kernels/TimePredFused.hpp, VolIntFused.hpp, SurfIntFused.hpp): (1) the fused kernels drop matrix entries below the tolerance, so that they agree
  with the vanilla kernels only if no matrix has such entries (hypothesis `Exact`). (2) At temporal order one with relaxation mechanisms, the constructor of the time kernel
  reads the first entry of an empty vector, and the one of the volume kernel uses the maximum of an empty set of rows; the model is undefined there. (3) The anelastic flux
  solver kernel is generated with `k = N_QTS_M` although its pattern has `N_QTS_E` columns (SurfIntFused.hpp:339), which is harmless only if LIBXSMM takes the columns from
  the pattern. (4) With the fill-in, the elastic volume kernel may multiply rows of the scratch memory which were not written by zero; over a field this is harmless, for
  floating point numbers stale infinities or NaNs would spread.
* C107 (`src/impl/advection/solvers/common.hpp:293-299`): for tetrahedra and order 1 the determinant is divided by six to "apply the effect of the inverse mass matrix right here", but the flux matrices of the kernels contain the inverse mass matrix, too: everything is advected six times too fast through faces. In line 235 `l_exR = l_exL && ...` uses the flag of the left element (harmless for the meshes of EDGE-V, where every face lies in its left element).
* C112 (`src/impl/seismic/setup.inc:248-262`, `src/impl/seismic/solvers/AderDg.hpp:274-310`): in viscoelastic simulations the parameters of the elements of other partitions are exchanged before
  `initSrcA` replaces the Lame parameters of the phase velocities by the elastic ones. The flux solvers of faces between partitions mix both kinds; the result depends on the partitioning.
* C113 (`src/impl/swe/solvers/FiniteVolume.hpp:194-198`): the time step only uses the momentum in x-direction, also in two dimensions. Fast flow in y-direction may cross any number of elements in a step.
* C118 (`tools/edge_v/src/mesh/Refinement.cpp:53-106`): the variables of the refinement expression are not reset between elements. An expression which assigns the frequency or the edges per wave length in some elements only takes the values of the element which the same thread processed before, so that the target lengths depend on the number of threads and the schedule (`C118_schedules_refuted`).
* C119 (`tools/edge_v/src/mesh/Mesh.cpp:681`, `tools/edge_v/src/geom/Generic.cpp:34`): `getCentroidsEl` allocates the centroids without initialising them and `centroid` adds the coordinates to the values found there. The centroids, at which the velocity model is evaluated for the time steps if requested, are right exactly if the memory happens to hold zeros (`C119_memory`, `C119_memory_refuted`).
* C120 (`tools/edge_v/src/main.cpp:263-267`, `tools/edge_v/src/models/GridExpression.cpp`): with gridded data and centroid-based time steps, the velocity model is initialised again at the centroids while the grid still holds the data of the vertices. Element `i` uses the depth of vertex `i` (`C120_centroids`, `C120_centroids_refuted`), and memory outside of the grid's data is read if there are more elements than vertices (`C120_bounds_refuted`).
* C121 (`tools/edge_v/src/main.cpp:487-489`, `tools/edge_v/src/io/Config.cpp:80`): land lower than the negative dry tolerance is raised to it, while the documentation speaks of negative bathymetry only (`C121_land_refuted`); a configuration without dry tolerance loses the default of -25 and applies none (`C121_default_refuted`).
* C43 (`src/io/Receivers.cpp:239`): both ends of the window `time - TOL < t < time + dt - TOL` are excluded. A sample at exactly the end
  of a step minus `TOL.TIME` is in no window, and since the receiver waits for it, all later samples are lost too
  (`C43_lost_refuted`).
