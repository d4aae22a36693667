{"id": "C01", "title": "A synchronisation interval is covered exactly", "statement": "When the time manager is asked to simulate a duration T, every time group performs a finite number of steps whose lengths sum to exactly T, so that all groups end at the same simulated time.", "quantifier": "every positive fundamental time step, every duration T >= 0, every number of time groups and every group id, every earlier simulated time", "why_tests_cant": "The number of full and of shortened synchronisation steps depends on T/dt; a test can only try a few ratios, while off-by-one errors appear for particular ratios and group counts.", "anchors": ["src/time/TimeGroupStatic.cpp:setUp,setDt,updateTsInfo", "src/time/TimeGroupStatic.h:finished,lastTimeStep"]}
{"id": "C02", "title": "No time step exceeds the stable step of the group", "statement": "Every step a time group takes is non-negative and not longer than the group's stable step (fundamental step times 2^group).", "quantifier": "every fundamental step, duration, group, and every step of the interval", "why_tests_cant": "The shortened steps depend on the remainder of T; stability must hold for every remainder.", "anchors": ["src/time/TimeGroupStatic.cpp:setUp,setDt"]}
{"id": "C03", "title": "Adjacent time groups stay in a 2:1 rhythm", "statement": "During an interval group g takes exactly twice as many steps as group g+1, and after 2k steps of g and k steps of g+1 both have advanced by the same time, also in the shortened part of the interval.", "quantifier": "every group pair, every k up to the number of steps of g+1, every duration and fundamental step", "why_tests_cant": "Alignment has to hold at every intermediate step of arbitrarily long intervals.", "anchors": ["src/time/TimeGroupStatic.cpp:TimeGroupStatic,setUp,setDt,updateTsInfo"]}
{"id": "C04", "title": "Time groups beyond the sixteenth keep their rhythm", "statement": "The duration multiplier of a group is 2 to the power of its id for every group id the constructor accepts.", "quantifier": "every number of groups and group id that fits the id type", "why_tests_cant": "The multiplier is stored in a 16-bit integer, which silently wraps; tests use a handful of groups.", "anchors": ["src/time/TimeGroupStatic.cpp:TimeGroupStatic"]}
{"id": "C05", "title": "A neighbouring update only reads predictions of the matching time interval", "statement": "Whenever a worker executes the neighbouring update of a time group for its step k, the local step (time prediction) of that group has been completed exactly k+1 times by every worker for inner and send elements, the faster adjacent group has completed exactly 2(k+1) and the slower adjacent group exactly floor(k/2)+1 predictions.", "quantifier": "every interleaving of scheduler, workers and communication thread, every number of groups and workers, every point of the interval", "why_tests_cant": "Schedules are exponentially many and timing dependent; a test run observes one.", "anchors": ["src/impl/seismic/inc/time/man_sched.inc", "src/time/Manager.cpp:getTimePredAvailable,getTimePredConsumed,compute,schedule", "src/parallel/Shared.cpp:setStatusAll,getStatusAll,setStatusTd"]}
{"id": "C06", "title": "Predictions are never overwritten while they are read", "statement": "While any worker executes a neighbouring update of a group, no worker executes a local step of the same or of a directly adjacent group, and no worker executes the local or source step on the DOFs which are being updated.", "quantifier": "every interleaving, every number of groups and workers", "why_tests_cant": "Data races show up only for rare timings.", "anchors": ["src/impl/seismic/inc/time/man_sched.inc", "src/time/Manager.cpp:getTimePredConsumed", "src/parallel/Shared.cpp"]}
{"id": "C07", "title": "The scheduler never aborts on a status check", "statement": "In no reachable state does the scheduler make a work region ready which is still ready or in progress for some worker, and no worker makes an illegal status transition; the fatal checks of the shared-memory layer therefore never fire during a simulation.", "quantifier": "every interleaving, every number of groups and workers", "why_tests_cant": "The checks abort the run of a day-long simulation; only all interleavings together show that they cannot fire.", "anchors": ["src/parallel/Shared.cpp:setStatusAll,setStatusTd", "src/impl/seismic/inc/time/man_sched.inc"]}
{"id": "C08", "title": "Every simulation interval terminates", "statement": "If every thread keeps being scheduled and started messages eventually complete, then simulating an interval terminates: all groups finish and the scheduler reports completion.", "quantifier": "every fair infinite interleaving, every number of groups, workers and steps", "why_tests_cant": "Absence of deadlock and livelock is a statement about infinitely long runs.", "anchors": ["src/impl/seismic/inc/time/man_sched.inc", "src/time/Manager.cpp:simulate,compute,communicate,schedule"]}
{"id": "C09", "title": "Each worker executes each work region exactly once per step", "statement": "When a group has completed n updates of an interval, every worker has executed its package of each of the six work regions (local, source, neighbouring; inner and send) exactly n times, in the order local, source, neighbouring.", "quantifier": "every interleaving, worker, group and step", "why_tests_cant": "A lost or repeated package happens only for special timings.", "anchors": ["src/impl/seismic/inc/time/man_sched.inc", "src/parallel/Shared.cpp"]}
{"id": "C10", "title": "Message buffers are never touched while a message is in flight", "statement": "A worker executes the local step of send elements of a group only while no send of that group is pending, and the neighbouring update of send elements only while no receive of that group is pending; per interval, exactly as many sends and receives are started as the group performs steps.", "quantifier": "every interleaving, group, number of steps, and every completion time of the messages", "why_tests_cant": "Completion times of messages are chosen by the network.", "anchors": ["src/impl/seismic/inc/time/man_sched.inc", "src/parallel/MpiRemix.cpp:beginSends,beginRecvs,finSends,finRecvs"]}
{"id": "C11", "title": "A worker obtains the most urgent ready work region", "statement": "When a worker asks for work it receives a region that is ready for it and no ready region of higher priority exists; it receives nothing exactly if no region is ready for it. Regions of equal priority are served in registration order.", "quantifier": "every sequence of registered regions and priorities, every status table", "why_tests_cant": "The search depends on arbitrary registration orders and status tables.", "anchors": ["src/parallel/Shared.h:regWrkRgn", "src/parallel/Shared.cpp:getWrkTd"]}
{"id": "C12", "title": "Static work split is a partition", "statement": "The initial split of n consecutive entities over the workers assigns every entity to exactly one worker, in contiguous ascending chunks whose sizes differ by at most one.", "quantifier": "every number of entities and workers, including fewer entities than workers", "why_tests_cant": "Remainders of every n and worker count matter.", "anchors": ["src/parallel/Shared.h:numaInit", "src/parallel/LoadBalancing.h:regWrkRgn"]}
{"id": "C13", "title": "Dynamic load balancing never loses or duplicates an entity", "statement": "After every load balancing the workers' packages of a region are contiguous, ascending, disjoint and together cover exactly the region, whatever run times were measured; rebalancing terminates.", "quantifier": "every region size, number of workers and measured times", "why_tests_cant": "Measured times are arbitrary positive numbers; rounding of every combination matters.", "anchors": ["src/parallel/LoadBalancing.cpp:balanceWrkRgn,balance"]}
{"id": "C14", "title": "Sparse offsets follow the rebalanced packages", "statement": "After load balancing, a worker's first sparse id of each sparse type is the sparse id of the first entity of that type in its package: the number of entities of the type between the region start and the package start, plus the region's sparse offset.", "quantifier": "every characteristics table, region and package split", "why_tests_cant": "Depends on arbitrary sparse flags and splits.", "anchors": ["src/parallel/LoadBalancing.cpp:resolveSpEn,balanceWrkRgn"]}
{"id": "C15", "title": "Message buffers of different channels never overlap", "statement": "The send (and receive) buffers of a rank's communication channels, and the slots of the element-faces inside them, are pairwise disjoint and lie inside the allocation.", "quantifier": "every communication structure, every time group combination, every number of buffers", "why_tests_cant": "Depends on the channel structure of the mesh partition.", "anchors": ["src/parallel/Distributed.cpp:init"]}
{"id": "C16", "title": "Sender and receiver of a channel agree on tag and size", "statement": "If two ranks describe the two ends of a channel, the send tag on one side equals the receive tag on the other, the number of bytes agrees, and different channels between the same two ranks have different tags.", "quantifier": "all time group pairs, numbers of groups and face counts", "why_tests_cant": "Mismatched messages depend on combinations of groups on both ranks.", "anchors": ["src/parallel/Distributed.cpp:init", "tools/edge_v/src/mesh/Communication.cpp:getStruct"]}
{"id": "C17", "title": "Minimum search over ranks elects exactly one owner", "statement": "The distributed minimum marks exactly one rank per value as owner: the lowest of the ranks which contributed the global minimum of the value.", "quantifier": "every number of ranks and values", "why_tests_cant": "Ties between arbitrary ranks decide.", "anchors": ["src/parallel/Distributed.cpp:min"]}
{"id": "C18", "title": "Completion is reported only after all messages of the group completed", "statement": "finSends/finRecvs of a group return true only if every matching request started before has completed, and eventually return true once all have.", "quantifier": "every history of begin, progress and query calls, every channel set", "why_tests_cant": "Orders of completions are arbitrary.", "anchors": ["src/parallel/MpiRemix.cpp:beginSends,beginRecvs,comm,finSends,finRecvs"]}
{"id": "C19", "title": "Lower-time-step messages are sent every second step only", "statement": "The selection of channels in a communication round includes a channel of the group exactly if the remote group is not slower, or the round is the designated one of the pair.", "quantifier": "all group pairs and rounds", "why_tests_cant": "The selection is a predicate over all group pairs.", "anchors": ["src/parallel/Distributed.cpp:checkSendTgLt,checkRecvTgLt"]}
{"id": "C20", "title": "The GASPI layer does not overwrite a buffer before it was consumed", "statement": "A send of a group is reported as finished only if the receiver has acknowledged enough previous messages that reusing the buffer is safe.", "quantifier": "every history of sends and notifications", "why_tests_cant": "Depends on the order in which notifications arrive.", "anchors": ["src/parallel/Gaspi.cpp:finSends,finRecvs,beginSends"]}
{"id": "C21", "title": "Sparse and dense ids are consistent", "statement": "The number of sparse entities, the dense-to-sparse map and the sparse-to-dense links of a sparse type agree: sparse ids are assigned consecutively in dense order, links invert the map, and membership means having all bits of the type.", "quantifier": "every characteristics array and sparse type", "why_tests_cant": "Depends on arbitrary bit patterns.", "anchors": ["src/data/SparseEntities.hpp:nSp,denseToSparse,linkSpDe"]}
{"id": "C22", "title": "Sub-region offsets of sparse entities are exact", "statement": "The per-region first ids and sizes of sparse entities partition the sparse ids and count exactly the entities of the type in each region.", "quantifier": "every layout and flags", "why_tests_cant": "Depends on arbitrary flags and region sizes.", "anchors": ["src/data/SparseEntities.hpp:subRgnsSpId"]}
{"id": "C23", "title": "Links between two sparse types are exact", "statement": "A link from sparse type A to sparse type B holds the B-id of the same dense entity, and the undefined marker if the entity is not of type B.", "quantifier": "every flags array and pair of types", "why_tests_cant": "Depends on arbitrary flags.", "anchors": ["src/data/SparseEntities.hpp:linkSpSp"]}
{"id": "C24", "title": "Sparse adjacency links are exact for every slot", "statement": "For every sparse entity and adjacency slot the link is the sparse id of the adjacent entity if it exists and has the type, and the undefined marker otherwise.", "quantifier": "every adjacency, flags, including undefined adjacencies at boundaries", "why_tests_cant": "Boundary slots depend on the mesh.", "anchors": ["src/data/SparseEntities.hpp:linkSpAdjSst,linkSpAdjDst,nLinkSpAdjDst"]}
{"id": "C25", "title": "Sparse types propagate to exactly the adjacent entities", "statement": "Propagation adds the given type bits to exactly the entities adjacent to an entity of the source type, and changes no other bit.", "quantifier": "every adjacency and flags", "why_tests_cant": "Depends on the mesh.", "anchors": ["src/data/SparseEntities.hpp:propAdj,inherit"]}
{"id": "C26", "title": "Points are assigned to the nearest entity, once", "statement": "Every point is assigned to an entity with minimal distance, by exactly one rank; other ranks see the undefined marker.", "quantifier": "every point set and mesh, every number of ranks", "why_tests_cant": "Ties and distances are arbitrary reals.", "anchors": ["src/data/SparseEntities.hpp:ptToEn", "src/parallel/Distributed.cpp:min"]}
{"id": "C27", "title": "Entity layouts are contiguous partitions", "statement": "The layout derived from sizes places the inner entities of all time groups, followed by the send entities of all time groups, consecutively and without gaps or overlaps, ending at the total number of entities; sizes and neighbors are kept, receive regions own no entities, and tables with different numbers of send and receive regions are rejected.", "quantifier": "every size table", "why_tests_cant": "Depends on arbitrary sizes.", "anchors": ["src/data/EntityLayout.cpp:sizesToLayout"]}
{"id": "C28", "title": "Flexible allocations give each entity its own memory", "statement": "Pointers handed out for entities with a base part and optional sparse extra parts are disjoint, inside the allocation, and large enough for the entity's parts.", "quantifier": "every flags array, base size and extra sizes", "why_tests_cant": "Depends on arbitrary flags.", "anchors": ["src/data/Dynamic.h:flex", "src/data/DataLayout.hpp"]}
{"id": "C29", "title": "Elements are put into a group whose step is stable for them", "statement": "The time step of the group an element is assigned to (before and after normalisation) is not larger than the element's CFL time step, provided the element's step is at least the fundamental one.", "quantifier": "every time step array, every admissible rate list and fundamental step", "why_tests_cant": "Depends on arbitrary reals near the group boundaries.", "anchors": ["tools/edge_v/src/time/Groups.cpp:setElTg,Groups,normalizeElTgs"]}
{"id": "C30", "title": "Group normalisation yields neighbours differing by at most one", "statement": "After normalisation every pair of face-neighbours differs by at most one group; no element was raised; the result is the largest such assignment, hence independent of the element order; the loop terminates.", "quantifier": "every mesh adjacency and initial assignment", "why_tests_cant": "Fixpoint over arbitrary graphs.", "anchors": ["tools/edge_v/src/time/Groups.cpp:normalizeElTgs"]}
{"id": "C31", "title": "Group sizes add up to the number of elements", "statement": "The histogram of elements per group counts each element exactly once and its entries sum to the number of elements.", "quantifier": "every assignment", "why_tests_cant": "Arbitrary assignments.", "anchors": ["tools/edge_v/src/time/Groups.cpp:nGroupEls"]}
{"id": "C32", "title": "Partition reordering groups elements as the solver expects", "statement": "Sorting by the partition priorities puts the elements of each partition in a contiguous block, inner elements before send elements, each ordered by time group; a send element is exactly one with a face-neighbour in another partition.", "quantifier": "every mesh, partitioning and time group assignment", "why_tests_cant": "Depends on the mesh and the partitioner.", "anchors": ["tools/edge_v/src/mesh/Partition.cpp:getElPr", "tools/edge_v/src/io/Gmsh.cpp:reorder"]}
{"id": "C33", "title": "The dual graph describes the mesh", "statement": "The graph handed to the partitioner lists for each element exactly its existing face-neighbours in ascending order, and the edge weights are those of the listed neighbour.", "quantifier": "every mesh and group assignment", "why_tests_cant": "Arbitrary adjacency.", "anchors": ["tools/edge_v/src/mesh/Partition.h:getDualGraph,getWeights"]}
{"id": "C34", "title": "Partition sizes are complete", "statement": "The number of elements is reported for every partition, including empty ones, and the counts sum to the number of elements.", "quantifier": "every partitioning", "why_tests_cant": "Arbitrary partitionings.", "anchors": ["tools/edge_v/src/mesh/Partition.cpp:nPaEls"]}
{"id": "C35", "title": "Receive lists mirror the neighbours' send lists", "statement": "The list of element-faces a partition receives from another one, per pair of time groups, is the send list of that partition for the mirrored pair in the same order with element and neighbour swapped.", "quantifier": "every mesh, partitioning and group assignment", "why_tests_cant": "Orders of messages depend on the mesh.", "anchors": ["tools/edge_v/src/mesh/Communication.cpp:getMsgsSend,getStruct"]}
{"id": "C36", "title": "Every cut face is communicated exactly once per direction", "statement": "The send messages of a partition contain each of its element-face pairs whose neighbour belongs to another partition exactly once, and nothing else.", "quantifier": "every mesh and partitioning", "why_tests_cant": "Arbitrary meshes.", "anchors": ["tools/edge_v/src/mesh/Communication.cpp:isComm,getMsgsSend"]}
{"id": "C37", "title": "Sparse types read from a file are attached to the right entities", "statement": "Attaching a sparse type to listed entities sets it for exactly those mesh entities with the listed vertices, or aborts if one is missing.", "quantifier": "every sorted entity list", "why_tests_cant": "Arbitrary lists.", "anchors": ["tools/edge_v/src/mesh/Mesh.cpp:addSparseTypeEn"]}
{"id": "C38", "title": "Grid lookups address the value of the enclosing grid point", "statement": "Evaluating gridded data at a point reads a value inside the data array, belonging to the grid coordinates found for the point.", "quantifier": "every grid accepted by the constructor and every point", "why_tests_cant": "Arbitrary grids.", "anchors": ["tools/edge_v/src/io/Grid.cpp"]}
{"id": "C39", "title": "Lexicographic normalisation of faces keeps data together", "statement": "Sorting the faces of an element by vertex ids permutes faces and the attached neighbour ids by the same permutation and yields ascending order.", "quantifier": "every element", "why_tests_cant": "Arbitrary ids.", "anchors": ["tools/edge_v/src/geom/Generic.cpp:sortLex", "tools/edge_v/src/mesh/Mesh.cpp:normOrder"]}
{"id": "C40", "title": "Normalised simplices have positive orientation", "statement": "After normalisation of its vertex order a non-degenerate triangle or tetrahedron has positive signed volume, and the listed faces still are the faces opposite to/containing the expected vertices.", "quantifier": "every vertex coordinates", "why_tests_cant": "Orientation of arbitrary elements.", "anchors": ["tools/edge_v/src/geom/Tria3.cpp:normVesFas", "tools/edge_v/src/geom/Tet4.cpp:normVesFas"]}
{"id": "C41", "title": "Surface extrusion writes a valid triangulation", "statement": "The triangles written for a grid only reference existing vertices, their number equals the number announced in the header, and together they cover the grid area exactly once. The surfaces of the six sides close: every edge of a triangle, as a pair of points, appears as often in one direction as in the other.", "quantifier": "every grid size and number of refinement levels accepted by the constructor, every elevation", "why_tests_cant": "Grid sizes, levels and elevations are unbounded.", "anchors": ["tools/edge_cut/src/mesh/Extrude.cpp:writeTriaOff,writeOff,addSide,Extrude"]}
{"id": "C42", "title": "Receiver output contains every sample exactly once in order", "statement": "For any sequence of samples, flushes and conditional flushes, the file content followed by the buffered samples is the sequence of all samples written so far; the buffer never overflows if a conditional flush happens at least once per 50 samples.", "quantifier": "every history of writes and flushes", "why_tests_cant": "Histories are unbounded.", "anchors": ["src/io/Receivers.cpp:writeRecvAll,flush,flushIf"]}
{"id": "C43", "title": "Receivers are sampled at every multiple of the sampling period exactly once", "statement": "Over consecutive time steps of any lengths, a receiver produces exactly one sample for every multiple of its sampling period inside the covered time, in order, none twice and none lost.", "quantifier": "every step sequence, frequency and start time", "why_tests_cant": "Steps and frequencies are arbitrary reals.", "anchors": ["src/io/Receivers.cpp:getRecvTimeRel,writeRecvAll", "src/impl/seismic/solvers/AderDg.hpp:local"]}
{"id": "C44", "title": "Time series are integrated exactly", "statement": "Integrating a sampled, piecewise linear time series over an interval yields the exact integral of the interpolant (with the given value outside the samples); integrals over adjacent intervals add up.", "quantifier": "every series, sampling period and interval", "why_tests_cant": "Positions of interval ends relative to samples are arbitrary.", "anchors": ["src/linalg/Series.hpp:integrate", "src/impl/seismic/setups/PointSources.hpp:apply"]}
{"id": "C45", "title": "Each point source acts on its own element exactly once", "statement": "The element-to-source map lists for every source element exactly the sources located in it; applying all source elements applies every source once.", "quantifier": "every set of sources and elements", "why_tests_cant": "Arbitrary locations.", "anchors": ["src/impl/seismic/setups/PointSources.hpp:getSrcPerms,elSpPs,apply"]}
{"id": "C46", "title": "f-wave net updates are conservative and well-balanced", "statement": "The left and right net updates of the shallow water solver sum to the jump of the fluxes corrected by the bathymetry source, and both vanish for a lake at rest.", "quantifier": "all states with positive depth and all bathymetries", "why_tests_cant": "All real states.", "anchors": ["src/impl/swe/solvers/Fwave.hpp:evs,waveStrengths,nus,nusN"]}
{"id": "C47", "title": "Finite volume updates conserve water volume", "statement": "A time step of the shallow water solver does not change the total volume of water in a mesh with periodic or reflecting boundaries.", "quantifier": "every mesh, state and time step", "why_tests_cant": "Arbitrary meshes.", "anchors": ["src/impl/swe/solvers/FiniteVolume.hpp:nusN,update"]}
{"id": "C48", "title": "Fault friction obeys the linear slip weakening law", "statement": "In every evaluation the magnitude of the total shear traction does not exceed the fault strength, a locked fault does not slip, slip never decreases, the friction coefficient stays between dynamic and static values and never increases with slip, and normal components stay continuous.", "quantifier": "all states and parameters with mu_s >= mu_d >= 0, every time step sequence", "why_tests_cant": "All real states and histories.", "anchors": ["src/impl/seismic/solvers/FrictionLaws.hpp:linSlipWeak,perturb"]}
{"id": "C49", "title": "Friction acts against the applied shear stress", "statement": "When the fault fails, the traction points in the direction of the total applied shear stress.", "quantifier": "all states", "why_tests_cant": "All real states.", "anchors": ["src/impl/seismic/solvers/FrictionLaws.hpp:linSlipWeak"]}
{"id": "C50", "title": "Face rotations are inverse to each other", "statement": "Rotating quantities into a face-aligned coordinate system and back is the identity, in two and three dimensions.", "quantifier": "all unit normals / all non-degenerate frames", "why_tests_cant": "All reals.", "anchors": ["src/impl/seismic/generated/Trafo*.inc", "src/impl/seismic/common.hpp"]}
{"id": "C51", "title": "The Riemann flux is consistent", "statement": "For equal states and materials on both sides, left plus right flux contributions equal the exact normal flux of the equations, for elastic and acoustic media.", "quantifier": "all material parameters and states", "why_tests_cant": "All reals.", "anchors": ["src/impl/seismic/generated/FlMid*.inc,FrMid*.inc", "src/impl/seismic/setups/Elasticity.cpp:setupFlMid,setupFrMid,fs"]}
{"id": "C52", "title": "Small matrices are inverted exactly", "statement": "inv returns the two-sided inverse of every 2x2 and 3x3 matrix it accepts; det is the determinant, also for 4x4.", "quantifier": "all matrices", "why_tests_cant": "All reals.", "anchors": ["src/linalg/Matrix.h:det,inv"]}
{"id": "C53", "title": "Sparse formats represent the same matrix", "statement": "Conversion of a dense matrix to coordinate, CSR and CSC format (and the transpose) keeps every entry above the tolerance at its position and adds nothing.", "quantifier": "all matrices, sizes and sub-matrix bounds", "why_tests_cant": "Arbitrary matrices.", "anchors": ["src/linalg/Matrix.h:denseToCrd,crdToCsr,crdToCsc,transposeCrd,getNnzCrd"]}
{"id": "C54", "title": "Dense matrix kernels compute the matrix product", "statement": "The dense kernels compute C = beta*C + A*B for every matrix of the fused set, independently of each other.", "quantifier": "all sizes, leading dimensions and values", "why_tests_cant": "Arbitrary sizes.", "anchors": ["src/linalg/Matrix.h:matMulB0,matMulFusedAC,matMulFusedBC"]}
{"id": "C55", "title": "The admissibility check is the relaxed discrete maximum principle", "statement": "A candidate solution is accepted exactly if its extrema lie within the neighbourhood's extrema relaxed by max(eps0, eps*range), for every fused simulation separately.", "quantifier": "all states, neighbourhoods", "why_tests_cant": "All reals.", "anchors": ["src/sc/Detections.hpp:dmpVe,dmpFa"]}
{"id": "C56", "title": "Limiter buffers alternate without mixing old and new data", "statement": "In consecutive time steps the buffers labelled 'previous' are those labelled 'limited/candidate' one step before, the labels of a step are pairwise different, and resetting at a synchronisation moves the previous solution to the first position.", "quantifier": "every step count", "why_tests_cant": "Unbounded step counts.", "anchors": ["src/sc/Steering.hpp:getAdmIds,getExtIds,getDofsIds,resetAdm,resetDofs,resetExt"]}
{"id": "C57", "title": "Local time stepping conserves the time integrals over faces", "statement": "The time-integrated data a slower element receives from a faster one is the sum of the two steps of the faster one, and the two halves a faster element uses of a slower one add up to the slower element's integral, on shared memory and through messages.", "quantifier": "all data and step parities", "why_tests_cant": "Arbitrary data.", "anchors": ["src/impl/seismic/solvers/AderDg.hpp:local,neigh"]}
{"id": "C58", "title": "Time integrals match the time prediction", "statement": "Integrating the predicted solution over [0,t] gives the integral of the prediction evaluated at every point in time.", "quantifier": "all derivatives, orders and times, with and without attenuation", "why_tests_cant": "All reals and orders.", "anchors": ["src/impl/seismic/kernels/TimePred.hpp:evalTimePrediction,integrate"]}
{"id": "C59", "title": "A step reads the buffer its message was written to", "statement": "The buffer a neighbouring update reads a message from is the one the sender's message for this step was put into, and the buffer the local update of a step writes is the one its send transmits.", "quantifier": "every step, every pair of time groups, one and two buffers", "why_tests_cant": "depends on the parity of the step and on the relation of the groups; single-step or single-group tests use buffer zero on both sides", "anchors": ["src/parallel/Distributed.cpp: sendCommBuffers2, recvCommBuffers2, init", "src/parallel/Gaspi.cpp: beginSends, finRecvs", "src/impl/seismic/steps.inc"]}
{"id": "C60", "title": "Synchronous data exchange delivers every channel's block to its other end", "statement": "After syncData, the block of every channel on the receiving rank holds exactly the bytes which the rank at the other end provided for this channel.", "quantifier": "every number of ranks, every consistent set of channels, every block content and size", "why_tests_cant": "needs several processes and arbitrary channel topologies", "anchors": ["src/parallel/Distributed.cpp: syncData"]}
{"id": "C61", "title": "Time group construction completes and its loads are honest", "statement": "For every mesh, admissible rates and time steps not below the fundamental one the construction of time groups completes; the reported loads are the sums of inverse steps, grouping never reports less work than per-element stepping, normalisation never reduces the reported work, and no load exceeds that of the fundamental step.", "quantifier": "every mesh adjacency, rate list, fundamental step and time step array", "why_tests_cant": "the bounds relate sums over all elements of every mesh; a test sees single meshes", "anchors": ["tools/edge_v/src/time/Groups.cpp:Groups,getLoads"]}
{"id": "C62", "title": "Relative CFL time steps are exact and normalised", "statement": "The relative time step of an element times the smallest absolute step equals insphere diameter over wave speed; all relative steps are at least one and one is exactly one; in absolute terms no element is integrated with a step above its own CFL step.", "quantifier": "every mesh, velocity model and rate list", "why_tests_cant": "it ranges over all velocity models and meshes", "anchors": ["tools/edge_v/src/time/Cfl.cpp:setTimeSteps", "tools/edge_v/src/time/Groups.cpp:Groups"]}
{"id": "C63", "title": "Normalisation reports the number of changed elements", "statement": "The value returned by the normalisation of time groups is the number of elements whose group was changed.", "quantifier": "every mesh adjacency and initial assignment", "why_tests_cant": "it ranges over all adjacencies and assignments, most of which change an element once only", "anchors": ["tools/edge_v/src/time/Groups.cpp:normalizeElTgs", "tools/edge_v/src/time/Groups.h:normalizeElTgs"]}
{"id": "C64", "title": "A partition receives through exactly the faces it sends through", "statement": "The element-face pairs of a partition which receive data from other partitions are exactly the pairs through which it sends data, each once, provided two elements share at most one face.", "quantifier": "every mesh, partitioning and group assignment", "why_tests_cant": "Faces and partners of a partition are arbitrary; a doubled or missing face shows up only for particular meshes.", "anchors": ["tools/edge_v/src/mesh/Communication.cpp:getStruct,getMsgsSend"]}
{"id": "C65", "title": "Channel lists of the partitions are complete and paired", "statement": "The flat list of channels of all partitions holds, for each partition from its offset on, the number of its channels followed by time group, remote partition, remote time group and number of faces of each; and each channel of one partition has a channel of the remote partition with swapped time groups and the same number of faces.", "quantifier": "every mesh, partitioning and group assignment", "why_tests_cant": "Offsets accumulate over arbitrarily many partitions with arbitrary numbers of channels.", "anchors": ["tools/edge_v/src/mesh/Communication.cpp:setChOff,setChs"]}
{"id": "C66", "title": "Inner and send element counts are exact", "statement": "For each partition and time group the reported numbers of inner and send elements are the numbers of elements of that partition and group without and with a face-neighbour in another partition.", "quantifier": "every mesh, partitioning and group assignment", "why_tests_cant": "Counts depend on arbitrary meshes and assignments.", "anchors": ["tools/edge_v/src/mesh/Communication.cpp:nGroupElsInSe,isComm"]}
{"id": "C67", "title": "Local send and receive lists refer to the partition's own elements", "statement": "The local element ids of the send and receive lists lie inside the partition, and adding the partition's first element gives the element-face pairs of its messages in message order; the construction of all communication structures ends normally for every ordered mesh without empty partitions.", "quantifier": "every mesh ordered by partition, inner/send and time group", "why_tests_cant": "Index arithmetic over arbitrary partition sizes.", "anchors": ["tools/edge_v/src/mesh/Communication.cpp:setSeReElFa,setSeReElFaOff,Communication"]}
{"id": "C68", "title": "The two sides of a cut face share one message slot", "statement": "If the communication structures of the preprocessor are handed to the communication layer of every rank, each rank initialises, and for every mesh face between two partitions the position which one rank fills for its side is, inside a message of the same tag and size, the position which the other rank reads for the opposite side of the same face.", "quantifier": "every ordered mesh in which two elements share at most one face, every partitioning, time group assignment, number of bytes per face and number of buffers", "why_tests_cant": "It relates two programs and two ranks; a swap of two faces in a message corrupts data silently.", "anchors": ["tools/edge_v/src/mesh/Communication.cpp:getStruct,setChs,setSeReElFa", "src/parallel/Distributed.cpp:init", "src/mesh/EdgeV.cpp"]}
{"id": "C69", "title": "Flux solvers return the exact Riemann flux", "statement": "The two flux solvers set up for an element at a face, applied to the states of the element and of its neighbor, return the flux of the middle state of the Riemann problem (the unique state connected to both sides by outgoing p- and s-waves with continuous traction and velocity). The two elements of a face use the same middle state, so momentum is conserved. At a free surface the flux is that of a state with vanishing traction.", "quantifier": "all orthonormal face frames, all pairs of elastic (2D also acoustic) materials, all states, all contents of uninitialised memory", "why_tests_cant": "All reals; all orientations of a face and all material contrasts.", "anchors": ["src/impl/seismic/solvers/AderDgInit.hpp:setUpFs", "src/impl/seismic/setups/Elasticity.cpp:fs", "src/impl/seismic/generated/FlMid*.inc,FrMid*.inc"]}
{"id": "C70", "title": "Anelastic flux solvers return the strain rate of the same Riemann solution", "statement": "The anelastic flux solvers of a face return the symmetric part of the product of normal and velocity of the same middle state the elastic flux solvers use, also at free surfaces.", "quantifier": "all orthonormal face frames, all pairs of elastic materials, all states", "why_tests_cant": "All reals.", "anchors": ["src/impl/seismic/setups/ViscoElasticity.cpp:fs,fsMid", "src/impl/seismic/solvers/AderDgInit.hpp:setUpFs"]}
{"id": "C71", "title": "Star matrices are the transformed Jacobians", "statement": "The star matrices are the combination of the physical Jacobians with the derivatives of the reference coordinates, and the sparse variant stores exactly the entries that can be nonzero in row-major order.", "quantifier": "all materials and element mappings", "why_tests_cant": "All field elements.", "anchors": ["src/impl/seismic/setups/Elasticity.cpp:star", "src/impl/seismic/common.hpp:getJac2D,getJac3D"]}
{"id": "C72", "title": "Faults: the fluxes of a face with friction are the ones of a frictional Riemann problem", "statement": "For every pair of elastic materials, every face orientation and every pair of element states, the net-updates which the internal boundary solver with the slip weakening law returns for the two elements of a face are the elastic wave fluxes, each with its own element's material, of an interface state with one common traction and one common normal velocity which is connected to both elements by outgoing waves only; the total shear traction on the face never exceeds the Coulomb strength, equals it whenever the two sides slip, opposes the slip, and the accumulated slip grows by the relative velocity times the time step. This holds no matter whether the face's normal points along or against the fault's preferred direction, and setup succeeds for every face that is not orthogonal to it.", "quantifier": "all materials, face normals, fault orientations, states, friction states, time steps, 2D and 3D", "why_tests_cant": "Real-valued states, materials and orientations; the sign conventions of the two orientations interact with the jump solvers, flux solvers and the plus/minus side of the friction law; a unit test checks a handful of literal states in one orientation.", "anchors": ["src/impl/seismic/solvers/InternalBoundary.hpp: InternalBoundary::netUpdates, InternalBoundarySpecialized::init", "src/impl/seismic/solvers/FrictionLaws.hpp: FrictionLawsSpecialized::perturb", "src/impl/seismic/setups/RuptureInit.hpp: linSlipWeak"]}
{"id": "C73", "title": "Rotation matrix between two directions", "statement": "Whenever the rotation matrix of two 3D vectors is returned it is a proper rotation (orthogonal, determinant one) and maps the direction of the first vector to the direction of the second; for unit vectors it is returned exactly if the vectors are not opposite up to the tolerance.", "quantifier": "all pairs of real 3D vectors and tolerances", "why_tests_cant": "Continuous inputs; the formula divides by one plus the cosine of the angle.", "anchors": ["src/linalg/Geom.hpp: GeomTs< 3 >::rotMat"]}
{"id": "C74", "title": "Time prediction and volume update solve the same equations", "statement": "The derivatives and the time integral which the prediction of an element provides are those of the solution of the elastic (and, with attenuation, relaxation) equations of the element to the order of the scheme, and the volume update integrates the same equations.", "quantifier": "all orders, element types, numbers of relaxation mechanisms and fused runs, all material matrices and all degrees of freedom", "why_tests_cant": "The unit test compares the kernels with a re-implementation for a few orders on fixed data, which has the same recursion; it cannot relate the prediction to the equations for all data and orders.", "anchors": ["src/impl/seismic/kernels/TimePredVanilla.hpp: ck", "src/impl/seismic/kernels/VolIntVanilla.hpp: apply"]}
{"id": "C75", "title": "Surface update sums the fluxes of all faces", "statement": "The surface updates of an element add the flux contributions of every face exactly once to the elastic unknowns and, scaled with its frequency, to the memory variables of every relaxation mechanism; outflow faces contribute nothing from outside and the free surface uses the element's own data.", "quantifier": "all sizes, flux matrices and solvers, boundary conditions per face, relaxation mechanisms, and all data of the element and its neighbors", "why_tests_cant": "Tests use a single element with one set of matrices and no mixture of boundary conditions, local time stepping relations and received messages.", "anchors": ["src/impl/seismic/kernels/SurfIntVanilla.hpp: local, neigh", "src/impl/seismic/kernels/SurfInt.hpp: scatterUpdateA", "src/impl/seismic/solvers/AderDg.hpp: neigh"]}
{"id": "C76", "title": "The limiter touches only the non-admissible fused simulations", "statement": "When stored sub-cell solutions replace projected ones or are handed to the adjacent element, exactly the fused simulations whose solution is not admissible change, every value comes from the matching sub-cell, and a reset of the limiter's counters affects exactly the limited elements of the given range.", "quantifier": "all numbers of quantities, sub-cells, fused simulations, all solutions, admissibilities and sub-face tables", "why_tests_cant": "All solutions and combinations of admissible simulations.", "anchors": ["src/sc/Kernels.hpp:scatterReplace,scatterReplaceFa,gatherSurfDofs", "src/sc/Steering.hpp:resetLimSync"]}
{"id": "C77", "title": "Faces and neighbours derived from the elements are those of the mesh", "statement": "Building a mesh from its elements lists every face exactly once, gives every element its own faces, lists for every face exactly the elements which have it, and names behind every face of an element the other element with this face, or none at the boundary. Meshes in which more than two elements meet at a face are rejected; all others are accepted.", "quantifier": "all numbers of elements and all vertex lists, and every admissible outcome of the unstable sorting", "why_tests_cant": "The result depends on the order in which an unstable sort leaves equal faces and on arbitrary vertex numberings.", "anchors": ["tools/edge_v/src/mesh/Mesh.cpp: Mesh, getElFaEl, normOrder"]}
{"id": "C78", "title": "The face id of a neighbour names the shared face", "statement": "For every face with a neighbour, the local face id reported for the neighbour is the position of the same face (or, at periodic boundaries, of its partner) in the neighbour.", "quantifier": "all meshes, elements and faces", "why_tests_cant": "The search takes the first face which leads back; whether it is the right one depends on how many faces two elements share.", "anchors": ["tools/edge_v/src/geom/Generic.cpp: getFaIdsAd", "tools/edge_v/src/mesh/Mesh.cpp: getFaIdsAd"]}
{"id": "C79", "title": "The vertex id of a neighbour gives the rotation of the shared face", "statement": "For a face shared by two tetrahedrons, the reported vertex id is the position, in the neighbour's face, of the first vertex of the own face; the other vertices follow in reversed order. The same holds for matching faces at periodic boundaries.", "quantifier": "all pairs of positively oriented tetrahedrons and all 4x4x3 constellations", "why_tests_cant": "All constellations of shared faces and arbitrary coordinates.", "anchors": ["tools/edge_v/src/geom/Tet4.cpp: getVeIdsAd", "tools/edge_v/src/geom/Geom.cpp: getVeIdsAd"]}
{"id": "C80", "title": "Periodic boundaries connect matching faces and nothing else", "statement": "After construction, partners at the periodic boundary are mutual and unique, behind a face with a partner is the element of the partner, all other neighbours are those of the mesh without periodic boundaries, and the first element listed for a face really has this face.", "quantifier": "all simplicial meshes, physical groups and periodic boundaries accepted by the constructor", "why_tests_cant": "The matching is a geometric search over all pairs of faces; later sorting may separate faces and elements.", "anchors": ["tools/edge_v/src/mesh/Mesh.cpp: setPeriodicBnds, Mesh"]}
{"id": "C81", "title": "Face normals are oriented by the opposite vertex of the face's first element", "statement": "The point used to orient the normal of a face is the vertex of the face's first element which is not part of the face.", "quantifier": "all simplicial meshes accepted by the constructor, including periodic ones", "why_tests_cant": "All meshes; depends on the order of the two elements of a periodic face.", "anchors": ["tools/edge_v/src/mesh/Mesh.cpp: getNormalsFa, getAddEntry"]}
{"id": "C82", "title": "Extruded sides resolve the depth as fine as the surface", "statement": "Consecutive points of an extruded side are closer in depth than any two neighbouring points of the coarse surface grid.", "quantifier": "every grid, target depth and number of refinement levels", "why_tests_cant": "Spacings, depths and grid sizes are unbounded.", "anchors": ["tools/edge_cut/src/mesh/Extrude.cpp:Extrude"]}
{"id": "C83", "title": "The neighbouring update uses the received predictions of the right time", "statement": "In a distributed run, whenever a worker executes the neighbouring update of the send elements of a time group in some step, the receive buffer of each of the group's channels holds the predictions of the other rank whose last one covers the end of this step: the prediction of the same step for the same time step, the prediction of the enclosing step for a slower remote group, both predictions of the step for a faster remote group; never an older or a newer one, and completely written by all workers of the sender.", "quantifier": "every number of ranks, pairing of channels, number of groups and workers, every interleaving of the threads of all ranks and every behaviour of the message layer that keeps the order per channel", "why_tests_cant": "Which message is in the buffer depends on the relative speed of the ranks and on the message layer; a mismatch shows only as slightly wrong numbers.", "anchors": ["src/parallel/MpiRemix.cpp:beginSends,beginRecvs,comm", "src/parallel/Distributed.cpp:checkSendTgLt,checkRecvTgLt", "src/impl/seismic/inc/time/man_sched.inc"]}
{"id": "C84", "title": "A distributed run cannot deadlock", "statement": "If all threads keep running and the message layer completes a receive once its message has been sent and a send once its receive has been posted, every rank reaches the end of the synchronisation interval; then all groups of all ranks have performed all their steps, no request is active, and on every channel exactly the sent messages have been received. It is not needed that sends are buffered.", "quantifier": "every number of ranks, pairing of channels between groups whose rates differ by at most two, every fair interleaving of all threads and every completion order of messages", "why_tests_cant": "Deadlocks of mutually waiting ranks appear only for particular relative speeds, partitions and message sizes (rendezvous instead of eager sends).", "anchors": ["src/time/Manager.cpp:simulate,getTimePredAvailable,getTimePredConsumed", "src/parallel/MpiRemix.cpp", "src/impl/seismic/inc/time/man_sched.inc"]}
{"id": "C85", "title": "The time stepping types of the elements are the relations of the time groups in the global mesh", "statement": "The library derives, on each rank, for every element and each of its faces the relation of the element's time group to that of the neighbour from the rank's local mesh, the group sizes and the communication structure written by EDGE-V. The call completes exactly if the groups of all adjacent elements differ by at most one. Then exactly one of the three bits of a face is set: equal, less, greater, according to the two groups in the global (not partitioned) mesh, with missing neighbours counted as equal; the bits of the element summarise those of its faces; all other bits keep the types of the mesh. The two elements at a face, on the same or on different ranks, get opposite relations, so that each offers the data the other one reads.", "quantifier": "every mesh, partition, assignment of time groups whose neighbours differ by at most one, and every element and face, faces between ranks included", "why_tests_cant": "The relation at faces between ranks is found by a search in the communication structure; errors appear only for particular partitions and groups, and show as slightly wrong fluxes.", "anchors": ["src/mesh/EdgeV.cpp:setLtsTypes,setSpTypes", "src/dg/const_ader.inc", "tools/edge_v/src/mesh/Communication.cpp:getStruct,nElsInSe"]}
{"id": "C86", "title": "A run covers the requested time and writes one wave field per interval", "statement": "With settings accepted by the library, the loop over synchronisation points ends; the durations passed to the time manager are positive, at most the maximum synchronisation interval, and sum up to the requested end time (less by at most the tolerance, never more). For each multiple of the wave field interval within the run exactly one wave field is written, at the multiple (earlier by less than the tolerance, never later, errors do not accumulate), consecutively numbered; all time groups have then covered exactly this time. The setup is written as file 0 exactly if the interval is smaller than the run.", "quantifier": "every end time, wave field interval and maximum synchronisation interval accepted by the settings' checks, every tolerance, every number of time groups up to sixteen", "why_tests_cant": "Termination and the placement of synchronisation points depend on real-valued intervals in arbitrary ratios.", "anchors": ["src/main.cpp", "src/io/Config.cpp", "src/io/WaveField.cpp:write", "src/time/TimeGroupStatic.cpp"]}
{"id": "C87", "title": "Wave field files hold the element averages of the selected elements", "statement": "Each file written by the wave field output holds all vertices, the vertices of exactly the elements whose sparse type has all requested bits, in the order of the mesh, and for each fused run r and quantity q exactly one variable named after r and q whose values are the first mode of this quantity and run of these elements at the time of the call, whatever earlier calls left in the buffers. No call reads or writes out of bounds.", "quantifier": "every number of elements, vertices, quantities, modes and fused runs, all sparse types, every sequence of calls and all DOFs", "why_tests_cant": "The reordering of the DOFs mixes five index ranges; an error shows only for particular combinations of fused runs and sparse types.", "anchors": ["src/io/WaveField.cpp", "src/io/Vtk.cpp:init,write"]}
{"id": "C88", "title": "Reference and physical coordinates are mapped consistently, also across faces", "statement": "For every element of every type, the map from the reference element sends the reference vertices to the vertices of the element; the Jacobian is the derivative of the map at every point of simplices, parallelograms and parallelepipeds; and for every point the map to the reference element returns the only reference point which is mapped to the point, for all tetrahedra with non-zero volume, all counter-clockwise triangles and all rectangles and cuboids parallel to the axes. A point on a face given by face parameters is the corresponding combination of the face vertices, and the quadrature points tabulated for a face and those tabulated for the neighbour with the face and vertex id reported by EDGE-V are the same physical points.", "quantifier": "all element types, vertices, points, faces, pairs of neighbouring elements including periodic ones, and face parameters", "why_tests_cant": "The formulas hold for all real coordinates; a wrong sign or index in one entry shows only for particular shapes, and the combination of face ids, vertex ids and orientation has many cases.", "anchors": ["src/linalg/Mappings.hpp", "src/linalg/Shape.hpp", "src/constants.hpp:C_REF_ELEMENT", "src/dg/QuadratureEval.hpp:faces"]}
{"id": "C89", "title": "Points are assigned to elements and located in them correctly", "statement": "For an element of any type whose map is affine and positively oriented, the test whether a point is in the element never aborts; a point reported as interior is in the interior; a point reported on a face is in the element and on one of its faces up to the tolerance relative to the element's determinant; a point of the element farther from all faces than this is reported as interior and a closer one as being on a face, so a point of the element is not reported as outside. The projection of an arbitrary point to a rectangle or cuboid is a point of the element which is closest in every coordinate, and points of the element are kept. Receivers and point sources whose projected location is in the element are located successfully at the reference point of the projected location, with coordinates between 0 and 1. All tetrahedra of a mesh normalised by EDGE-V satisfy the requirements.", "quantifier": "all element types, vertices, points, tolerances, and meshes of tetrahedra", "why_tests_cant": "Membership must be decided correctly for all positions relative to all faces, including those within the tolerance.", "anchors": ["src/linalg/Geom.hpp:inside,closestPoint", "src/io/Receivers.cpp:init", "src/impl/seismic/setups/PointSources.hpp"]}
{"id": "C90", "title": "Quadrature rules integrate polynomials exactly over elements and faces", "statement": "If the one-dimensional rule with n points of the library is exact for polynomials of degree up to 2n-1 on [-1,1], then the points and weights which are computed for an element integrate exactly: polynomials of total degree up to 2n-1 along lines, of degree up to 2n-1 in each variable over rectangles and cuboids parallel to the axes, of total degree up to 2n-2 over triangles, and of total degree up to 2n-3 over tetrahedra, for all vertices whose determinant is above the tolerance. The number of points is n per dimension. The weights add up to the length, area or volume of the element; for tetrahedra this needs n >= 2. If the one-dimensional points lie in [-1,1] and have nonnegative weights, the points of triangles, tetrahedra and cuboids lie in the element and have nonnegative weights.", "quantifier": "all numbers of points, vertices, tolerances and polynomials of the stated degrees", "why_tests_cant": "Exactness is a statement about all polynomials of a degree, all elements and all orders; tests check a few integrals.", "anchors": ["src/dg/QuadraturePoints.h:getQpts,getQptsLine,getQptsQuad4,getQPtsTria3,getQPtsHex8r,getQPtsTet4,gaussLegendre"]}
{"id": "C91", "title": "Basis functions are the orthogonal polynomials, with their derivatives", "statement": "For every type of element, every supported order, every number of a basis function and every point of the reference element, the evaluated basis function is the product of Jacobi polynomials with that number (lines and their tensor products: Legendre polynomials of degree below 10; triangles: total degree below 10; tetrahedra: total degree below 11), the requested partial derivative is the derivative of that polynomial, the functions are orthogonal on the reference element with known masses, and for triangles and tetrahedra the first functions are exactly those of total degree below any order.", "quantifier": "all types of elements, orders, numbers of functions, directions of derivatives and points", "why_tests_cant": "About 1200 generated formulas have to be right at every point; the tests compare a few functions at a few points.", "anchors": ["src/dg/Basis.cpp:evalBasis,evalBasisLine,evalBasisDerLine,evalBasisQuad,evalBasisTria,evalBasisHex,evalBasisTet", "src/dg/generated/basis_line.inc", "src/dg/generated/basis_line_der.inc", "src/dg/generated/basis_tria.inc", "src/dg/generated/basis_tria_der_xi1.inc", "src/dg/generated/basis_tria_der_xi2.inc", "src/dg/generated/basis_tet.inc", "src/dg/generated/basis_tet_der_xi1.inc", "src/dg/generated/basis_tet_der_xi2.inc", "src/dg/generated/basis_tet_der_xi3.inc", "src/constants.hpp:CE_N_ELEMENT_MODES"]}
{"id": "C92", "title": "Initial values are the projection of the user's expressions, and error norms compare with them", "statement": "For every type of element, every supported order, all numbers of quantities and fused runs, every mesh of valid elements and every distribution of the elements over threads, the degrees of freedom set from the user's expressions represent, in each element, quantity and fused run, the projection of that expression: polynomials of degree below the order are reproduced exactly at every point, the remainder for any other expression is orthogonal to all basis functions with respect to the quadrature rule, no other coefficients have a smaller squared error at the quadrature points, and degrees of freedom of other elements keep their values. The error norms are the weighted sums and maxima of the differences at the quadrature points; they are zero right after the initialization with polynomials of degree below the order. The dense inverse mass matrix is the inverse of the matrix of the integrals of products of basis functions.", "quantifier": "all types of elements, orders, expressions, meshes, numbers of quantities and fused runs, schedules of threads, previous contents of the memory and points", "why_tests_cant": "Tests compare a few projections at a few points for fixed elements; exactness ranges over all polynomials, elements, orders, thread schedules and stale memory.", "anchors": ["src/setups/InitialDofs.hpp:InitialDofs::bc,InitialDofs::qps,InitialDofs::dg,InitialDofs::err", "src/dg/Basis.cpp:Basis::Basis,Basis::initMassMatrix,Basis::initEvalQpRefEl,Basis::qpts2modal,Basis::modal2ptval,Basis::modal2refPtVal,Basis::getMassInvDense", "src/linalg/Matrix.h:Matrix::denseToCrd", "src/data/Expression.hpp:Expression::eval,Expression::compile"]}
{"id": "C93", "title": "Inside of an element the predicted solution solves the elastic wave equations exactly", "statement": "For every type of element and every order the generated basis is the one the code evaluates, the generated mass matrix is diagonal, the stored stiffness matrices of the time kernel differentiate every function of the basis exactly, and those of the volume kernel are the integrals of functions against derivatives of the basis. The blocks which the kernels leave out are zero. Consequently the predicted solution of an element starts at its degrees of freedom, its time integral is the one handed to the update, and it solves the elastic wave equations at all points and times: exactly in physical coordinates in triangles and tetrahedra of every shape and size, and in rectangles and hexahedra up to the time derivative of the highest order.", "quantifier": "all types of elements, orders, shapes of elements, material parameters, degrees of freedom, fused runs, points and times", "why_tests_cant": "Tests compare a few entries of matrices and single time steps with references; the equations are to hold at every point and time for all elements, orders, materials and states.", "anchors": ["tools/edge_pre/edge_pre/int/Matrices.py:mass,stiff", "tools/edge_pre/edge_pre/dg/basis/Tria.py:gen", "tools/edge_pre/edge_pre/dg/basis/Tet.py:gen", "tools/edge_pre/edge_pre/io/ArrStr.py:float2d,float3d", "src/dg/Basis.h:Basis::getStiffMm1Dense", "src/dg/TimePred.hpp:TimePred::storeStiffTDense", "src/dg/VolInt.hpp:VolInt::storeStiffDense", "src/impl/seismic/kernels/TimePredVanilla.hpp:TimePredVanilla::ck", "src/impl/seismic/solvers/AderDgInit.hpp:AderDgInit::initStar"]}
{"id": "C94", "title": "Surface integration exchanges the solutions of adjacent elements at the same points of their common face", "statement": "For every type of element and every order, the generated flux matrices, as stored by the solver, make the local and the neighboring surface integrations add to every mode the integral over the element's faces of the flux solvers applied to the solution of the element, respectively of the adjacent elements, times the mode's function, divided by the squared norm of the function. Every vertex orientation and every pair of local faces selects the matrix which takes the two solutions at the same physical point of the face, also across periodic boundaries. Faces with outflow boundary conditions add nothing in the neighboring integration; at the free surface the element's own solution is used.", "quantifier": "all types of elements except lines, orders, faces and orientations, shapes of elements, boundary conditions, flux solvers, states, fused runs, relaxation mechanisms and time step relations", "why_tests_cant": "Tests compare single matrices and single updates with references; the points have to agree for all combinations of faces and orientations at all points of the face, and the integrals have to be exact for all orders and states.", "anchors": ["tools/edge_pre/edge_pre/int/Matrices.py:flux", "tools/edge_pre/edge_pre.py", "tools/edge_pre/edge_pre/types/Tet.py:faToEl,faToFa", "src/dg/Basis.h:Basis::getFluxDense", "src/dg/SurfInt.hpp:SurfInt::storeFluxDense", "src/impl/seismic/kernels/SurfIntVanilla.hpp:SurfIntVanilla::local,neigh", "src/impl/seismic/solvers/AderDg.hpp:AderDg::neigh"]}
{"id": "C95", "title": "Normals, tangents and areas of the faces describe the boundary of every element", "statement": "For every mesh of triangles or tetrahedrons accepted by the preprocessing, the normal of every face is a unit vector orthogonal to the face which points away from the face's first element, the tangents complete it to an orthonormal system, and the area is the length, respectively the area of the face. Seen from either of the two elements, whatever the order of the face's vertices, normal times area is the image of the reference element's normal under the element's map (scaled with the determinant). The centroid of an element is the average of its vertices.", "quantifier": "all meshes of triangles and tetrahedrons without degenerate elements, all faces, orders of vertices, and contents of uninitialised memory", "why_tests_cant": "Tests compare a few faces of small meshes with references; orientation and scaling have to be right for every order of vertices and every shape of the element, and results must not depend on the content of fresh memory.", "anchors": ["tools/edge_v/src/mesh/Mesh.cpp:Mesh::getNormalsFa,getTangentsFa,getAreasFa,getCentroidsEl", "tools/edge_v/src/geom/Line.cpp:Line::length,normal,tangent", "tools/edge_v/src/geom/Tria3.cpp:Tria3::area,tangents,normal", "tools/edge_v/src/geom/Generic.cpp:Generic::centroid", "tools/edge_v/src/geom/Geom.cpp"]}
{"id": "C96", "title": "Every face of every element gets the flux solver of its interface", "statement": "The set-up of the flux solvers succeeds for every consistent mesh and writes, for every element and every local face, exactly one pair of solvers: built from the element's material, the material behind the face (of the adjacent element, of the element received from another partition, or the own one at boundaries), the normal pointing out of the element and the boundary condition of the face, and scaled by minus the area of the face over the volume of the element. The solvers return the scaled flux of the middle state of the Riemann problem at the interface. The result does not depend on the order in which threads process the faces. Meshes written by the preprocessing are consistent in this sense.", "quantifier": "all meshes, partitions, boundary conditions, elastic materials, orders of faces, with and without relaxation mechanisms, in two and three dimensions", "why_tests_cant": "Tests initialise single faces; which side of which face writes which solver depends on the whole connectivity of the mesh, on periodic partners and on partition boundaries.", "anchors": ["src/impl/seismic/solvers/AderDgInit.hpp:AderDgInit::initFs", "src/impl/seismic/solvers/AderDgInit.hpp:AderDgInit::setUpFs", "src/mesh/common.hpp:common::getElVeCrds"]}
{"id": "C97", "title": "Time steps reproduce polynomial solutions of the elastic wave equations exactly", "statement": "On any mesh of non-degenerate triangles or tetrahedrons, with any elastic materials in the elements, periodic boundaries, free surfaces and outflow boundaries, a solution of the elastic wave equations which is a polynomial of degree less than the order in every element, has continuous traction and velocity at the faces and satisfies the boundary conditions, is reproduced without any error by any number of time steps of any sizes. If this holds in a region of the mesh only, whatever the data elsewhere, it is reproduced in all elements whose distance to the region's boundary, counted in faces, is at least the number of steps. The set-up of the required matrices and flux solvers succeeds for every such mesh.", "quantifier": "all orders, meshes, materials, regions, polynomial solutions, sequences of time steps and fused simulations, in two and three dimensions", "why_tests_cant": "Convergence tests run a few meshes and compare errors up to a threshold; a wrong factor, sign or index in the interplay of prediction, volume and surface integrals and flux solvers changes the result only for some meshes, materials or orders.", "anchors": ["src/impl/seismic/solvers/AderDg.hpp:AderDg::local", "src/impl/seismic/solvers/AderDg.hpp:AderDg::neigh", "src/impl/seismic/steps.inc", "src/impl/seismic/kernels/TimePredVanilla.hpp", "src/impl/seismic/kernels/VolIntVanilla.hpp", "src/impl/seismic/kernels/SurfIntVanilla.hpp", "src/impl/seismic/solvers/AderDgInit.hpp:AderDgInit::initFs,initStarE"]}
{"id": "C98", "title": "Time steps conserve momentum and angular momentum", "statement": "On any mesh of non-degenerate triangles or tetrahedrons, with any elastic materials, whose boundary faces are free surfaces or periodic, and for any data, whether or not it is a solution of the wave equations, any number of time steps of any sizes conserves the momentum: the sum over the elements of density times the integral of every component of the velocity. If the order is at least two, the same holds for angular momentum on meshes without periodic boundaries, and in general for the momentum along every rigid motion which is compatible with the shifts of periodic boundaries.", "quantifier": "all orders, meshes, materials, data, sequences of time steps, rigid motions and fused simulations, in two and three dimensions", "why_tests_cant": "Conservation is the cancellation of the fluxes of the two sides of every face, which depends on the orientation of both elements, the flux solvers of two materials and the exchange matrices of all face and vertex combinations; a test sees only the combinations of its mesh.", "anchors": ["src/impl/seismic/solvers/AderDg.hpp:AderDg::local", "src/impl/seismic/solvers/AderDg.hpp:AderDg::neigh", "src/impl/seismic/solvers/AderDgInit.hpp:AderDgInit::initFs,initStarE", "src/impl/seismic/kernels/SurfIntVanilla.hpp", "src/impl/seismic/kernels/VolIntVanilla.hpp"]}
{"id": "C99", "title": "Fused kernels compute the same as the vanilla kernels", "statement": "For triangles and tetrahedrons of any order, once the constructors of the kernels for fused simulations have succeeded on matrices without non-zero entries below the tolerance, each fused kernel (time prediction, volume integration, local and neighbouring surface integration, with any number of relaxation mechanisms) computes exactly the arrays of the vanilla kernel from the same data, whatever the scratch memory holds; hence also every time step of an element with any kinds of faces, and any number of time steps of any mesh without relaxation mechanisms. The sparse star and source matrices of the elements hold exactly the possibly non-zero entries of the dense ones, in the order of the generated patterns.", "quantifier": "all orders, numbers of fused simulations and relaxation mechanisms, stiffness and flux matrices, materials, Jacobians, faces, states, contents of scratch memory, meshes and sequences of time steps", "why_tests_cant": "Which entries a sparse kernel reads depends on patterns derived at run time from the matrices, on shrinking sizes per derivative and on leading dimensions; a test compares both kernels for few orders and data, in floating point with a tolerance, and cannot exclude an entry which is only dropped for other materials, geometries or scratch contents.", "anchors": ["src/impl/seismic/kernels/TimePredFused.hpp", "src/impl/seismic/kernels/VolIntFused.hpp", "src/impl/seismic/kernels/SurfIntFused.hpp", "src/impl/seismic/kernels/FakeMats.hpp:FakeMats", "src/impl/seismic/setups/ViscoElasticity.cpp:star", "src/impl/seismic/setups/ViscoElasticity.h:src", "src/data/MmXsmmFused.hpp"]}
{"id": "C100", "title": "Local time stepping conserves momentum and angular momentum at synchronizations", "statement": "On any mesh of triangles or tetrahedrons whose boundaries are free surfaces or periodic, with any materials and any assignment of time groups in which adjacent elements differ by a factor of two at most, the momentum along every rigid motion (for periodic boundaries: along those compatible with the shifts) is the same at all synchronizations: elements with a small time step hand over to neighbours with a large one exactly what they took themselves, and vice versa.", "quantifier": "all orders, meshes, materials, time groups, time steps of the groups, initial data, numbers of synchronizations, and all orders of the updates with the rhythm of the scheduler", "why_tests_cant": "Whether the buffers for faster and slower neighbours are reset, summed and split at the right step depends on the history of both elements at each face; a test runs few meshes and clusterings and cannot tell a small loss from rounding.", "anchors": ["src/impl/seismic/solvers/AderDg.hpp:local", "src/impl/seismic/solvers/AderDg.hpp:neigh", "src/impl/seismic/steps.inc", "src/dg/const_ader.inc"]}
{"id": "C101", "title": "Results do not depend on the order of the updates", "statement": "Any two orders of the local and neighbouring updates of the elements which respect the rhythm of the scheduler lead from the same state at a synchronization to the identical state (degrees of freedom and buffers) at the next one. No law of arithmetic is used: both orders perform the same operations on the same values.", "quantifier": "all meshes, time groups, time steps, states, numbers of intervals and all orders of the updates", "why_tests_cant": "The order of the updates depends on the number of workers and on timing; tests see few of the exponentially many orders.", "anchors": ["src/impl/seismic/solvers/AderDg.hpp:local", "src/impl/seismic/solvers/AderDg.hpp:neigh", "src/time/Manager.cpp:schedule"]}
{"id": "C102", "title": "Local time stepping is exact for polynomial solutions", "statement": "Where the solution of the elastic wave equations is, element by element, a polynomial of degree less than the order in space which meets the jump and boundary conditions, local time stepping with time groups whose time steps are split in halves reproduces it at every synchronization: everywhere, or, for a solution in a region of the mesh only, in all elements which are as many faces away from the boundary of the region as there are steps of the smallest time step.", "quantifier": "all orders, meshes, materials, boundary conditions, time groups, time steps, regions, polynomial solutions, numbers of synchronizations and all orders of the updates with the rhythm of the scheduler", "why_tests_cant": "A test compares a few meshes and clusterings with a reference up to a tolerance, which hides errors of the order of the scheme, such as a half of a time step which is taken twice at a face between two groups.", "anchors": ["src/impl/seismic/solvers/AderDg.hpp:local", "src/impl/seismic/solvers/AderDg.hpp:neigh", "src/impl/seismic/steps.inc", "src/time/TimeGroupStatic.cpp"]}
{"id": "C103", "title": "Threads update the elements in the rhythm of local time stepping, and do not change the results", "statement": "In a synchronization interval the threads of a rank update every element as often as its time group requires, a neighboring update of an element comes after exactly those local updates of its neighbors whose data it needs and before the next ones, and the state of all elements at the end of the interval is the same for any interleaving of the threads, any number of workers, any distribution of the elements to the workers by the load balancing and any priorities of the work regions.", "quantifier": "every number of time groups, workers, channels, elements; every interleaving of scheduling, communication tests and single element updates; every distribution of the elements to work packages which registration and load balancing create; every number of intervals", "why_tests_cant": "A test run sees one interleaving of the threads on one machine; the claim covers all interleavings and all distributions of the work.", "anchors": ["src/time/Manager.cpp: communicate, compute, simulate", "src/impl/seismic/inc/time/man_sched.inc: schedule", "src/impl/seismic/setup.inc: regWrkRgn calls", "src/parallel/Shared.cpp: getWrkTd, balance", "src/impl/seismic/solvers/AderDg.hpp: local, neigh"]}
{"id": "C104", "title": "A simulation conserves momentum and is exact for polynomial solutions, from set up to the last synchronization", "statement": "For a mesh on one rank with local time stepping: with the time steps the time groups compute, the sparse types the mesh set up computes, the work packages the load balancing computes and any interleaving of the threads, simulating any number of intervals (a) keeps the momentum and angular momentum of a mesh whose boundaries are free surfaces or periodic, and (b) turns the degrees of freedom of a solution, which is polynomial of degree less than the order, into those of the solution at the time which is the sum of the durations.", "quantifier": "every mesh, material, order, boundary condition, at most 16 time groups, every sequence of interval durations, number of workers, history of load balancing, interleaving of the threads, initial data (a) or polynomial solution (b)", "why_tests_cant": "The claim quantifies over meshes, solutions, durations and thread interleavings at once; a convergence test checks a few of them up to a tolerance.", "anchors": ["src/time/Manager.cpp: simulate", "src/time/TimeGroupStatic.cpp: setUp, setDt, updateTsInfo", "src/mesh/EdgeV.cpp: setLtsTypes", "src/impl/seismic/setup.inc", "src/impl/seismic/steps.inc", "src/impl/seismic/solvers/AderDg.hpp: local, neigh", "src/parallel/Shared.cpp"]}
{"id": "C105", "title": "The kernels for single simulations compute the same as the vanilla kernels", "statement": "A build with the LIBXSMM kernels for single simulations yields the results of a build with the vanilla kernels: from equal inputs, the time prediction, the volume integration, the local and the neighbouring surface integration write the same numbers to all output arrays, for elastic and anelastic runs, any boundary and orientation of the neighbour; and with them any sequence of updates of a mesh with local time stepping, and entire simulations with threads and work packages, end in the same states.", "quantifier": "all element types, orders, numbers of relaxation mechanisms, matrices, flux solvers, degrees of freedom, contents of scratch memory, time steps, meshes, sequences of updates and intervals for which the vanilla kernels stay within their arrays", "why_tests_cant": "The equality must hold for every order, every number of mechanisms and every matrix; a wrong leading dimension, kernel index or size shows only in some configurations, and tests compare single calls up to a tolerance.", "anchors": ["src/impl/seismic/kernels/TimePredSingle.hpp: generateKernels, ck", "src/impl/seismic/kernels/VolIntSingle.hpp: generateKernels, apply", "src/impl/seismic/kernels/SurfIntSingle.hpp: generateKernels, local, neighFluxInt, neigh", "src/data/MmXsmmSingle.hpp: add", "src/impl/seismic/kernels/Kernels.hpp"]}
{"id": "C106", "title": "Simulations with the fused kernels", "statement": "Simulations with local time stepping which use the kernels for fused simulations (sparse matrices) yield the same degrees of freedom, derivatives, time integrated degrees of freedom and numbers of updates as simulations with the vanilla kernels, for every order of the updates and any contents of the scratch memory.", "quantifier": "all triangular and tetrahedral meshes, orders, materials, numbers of fused simulations, time groups, sequences of updates of the elements, intervals between synchronizations and initial states", "why_tests_cant": "Tests compare single kernel calls; equality of complete runs ranges over all meshes, schedules of the threads and histories.", "anchors": ["src/impl/seismic/solvers/AderDg.hpp:local", "src/impl/seismic/solvers/AderDg.hpp:neigh", "src/impl/seismic/kernels/TimePredFused.hpp", "src/impl/seismic/kernels/VolIntFused.hpp", "src/impl/seismic/kernels/SurfIntFused.hpp", "src/impl/seismic/steps.inc"]}
{"id": "C107", "title": "The flux solvers of the advection equation are upwind, conservative and keep constant states", "statement": "setupSolvers succeeds for every valid mesh. The solver of an element for its own values at a face is -max(v.n,0) times the face's surface factor over the determinant of the element, with v its own velocity and n the normal pointing out of it; the solver for the values behind the face is max(-v.n,0) with the velocity behind the face (element of this rank, or of another rank through the communication structure), and zero if there is nothing behind it. What one side of a face loses the other side gains. For a uniform velocity the solvers of a closed element add up to zero.", "quantifier": "all element types, orders, meshes with any adjacency (boundary, periodic and communicating faces), geometries with positive areas and determinants, velocities", "why_tests_cant": "it ranges over all meshes and velocities; four entries per face are written from two branches and must not interfere with those of other faces", "anchors": ["src/impl/advection/solvers/common.hpp:setupSolvers"]}
{"id": "C108", "title": "Time steps of the advection equation", "statement": "The star matrices are the velocity in reference coordinates; their set-up fails only for degenerate elements. The prediction of an element solves the advection equation at all points and times: it is the initial polynomial moved by time times velocity. The element stores the prediction's integral over its time step; neighbours with half the time step get the integrals over the first and the second half, neighbours with twice the time step get the sum over two steps. A time step with equal time steps succeeds for every mesh and is, in every element, the weak form of the equation for all polynomials as test functions, with the values of both sides of a face taken at the same point. If the values behind all faces continue those of the element, the step moves the element's values exactly by time step times velocity, for every order.", "quantifier": "all triangular and tetrahedral meshes without degenerate elements, orders, velocities, numbers of fused simulations, time steps, states and contents of the scratch memory", "why_tests_cant": "it is a statement on all meshes, orders, states and time steps, and on real-valued functions of space and time; convergence tests run a few meshes and measure errors", "anchors": ["src/impl/advection/kernels/TimePred.hpp:ck", "src/impl/advection/kernels/TimePred.hpp:integrate", "src/impl/advection/kernels/VolInt.hpp:apply", "src/impl/advection/kernels/SurfInt.hpp:local", "src/impl/advection/kernels/SurfInt.hpp:neigh", "src/impl/advection/solvers/AderDg.hpp:setupStarM", "src/impl/advection/solvers/AderDg.hpp:local", "src/impl/advection/solvers/AderDg.hpp:neigh"]}
{"id": "C109", "title": "The advection solver conserves mass", "statement": "In a time step the integral of the solution over all elements changes only by what passes the outflow boundaries: the integral, over the boundary faces, of the solver times the element's own predicted values. Without outflow boundaries the mass is the same after any number of time steps of any sizes. The flux solvers which the code sets up have the required balance.", "quantifier": "all triangular and tetrahedral meshes whose faces match, orders, flux solvers with balance, velocities, sequences of time steps, initial states and fused simulations", "why_tests_cant": "it holds for all meshes and for arbitrarily long runs; tests check a few steps within a tolerance", "anchors": ["src/impl/advection/solvers/AderDg.hpp:local", "src/impl/advection/solvers/AderDg.hpp:neigh", "src/impl/advection/kernels/SurfInt.hpp", "src/impl/advection/kernels/VolInt.hpp", "src/impl/advection/solvers/common.hpp:setupSolvers"]}
{"id": "C110", "title": "Advection simulations from the set-up to the last step", "statement": "A simulation with the star matrices and flux solvers which the code computes from vertices, velocities and connectivity keeps the mass, if there are no outflow boundaries, for all velocities (which may differ from element to element). With a uniform velocity v, initial values q which all elements represent exactly, e.g. a polynomial of a degree below the order, are moved exactly: after time T every element holds q(x - T v), except for the elements which information from an inflow boundary can have reached, i.e. those with an inflow boundary not farther away than the number of time steps.", "quantifier": "all conforming triangular and tetrahedral meshes with periodic or outflow boundaries, orders, velocities, initial values, fused simulations and sequences of time steps", "why_tests_cant": "tests measure errors of a few runs; the statement ranges over all meshes, polynomials and histories and needs set-up, kernels and connectivity to fit together", "anchors": ["src/impl/advection/solvers/common.hpp:setupSolvers", "src/impl/advection/solvers/AderDg.hpp:setupStarM", "src/impl/advection/solvers/AderDg.hpp:local", "src/impl/advection/solvers/AderDg.hpp:neigh", "src/impl/advection/kernels/TimePred.hpp", "src/impl/advection/kernels/VolInt.hpp", "src/impl/advection/kernels/SurfInt.hpp"]}
{"id": "C111", "title": "Viscoelastic materials have the requested wave speeds at the central frequency", "statement": "The elastic Lame parameters, source matrices and relaxation frequencies which the set-up derives from the Lame parameters of the phase velocities give plane P- and S-waves of the central frequency exactly the requested phase velocities, whatever coefficients the least squares fit returns, unless a modulus degenerates. The relaxation frequencies are a geometric series centred at the central frequency with the given ratio of last and first, and the quality factor is the requested one at every frequency where the fit is exact.", "quantifier": "all numbers of mechanisms, central frequencies, frequency ratios, quality factors, Lame parameters, densities, results of the fit, and plane waves", "why_tests_cant": "tests compare a few numbers with a reference implementation; the wave speed is a property of the solutions of the equations of motion for all parameters", "anchors": ["src/impl/seismic/setups/ViscoElasticity.cpp:elasticLame", "src/impl/seismic/setups/ViscoElasticity.cpp:anelasticCoeffLame", "src/impl/seismic/setups/ViscoElasticity.h:frequencies", "src/impl/seismic/setups/ViscoElasticity.h:src"]}
{"id": "C112", "title": "Material parameters of the flux solvers do not depend on the partitioning", "statement": "The material parameters which the flux solvers of a face use for an element are the same whether the element belongs to the own or to another partition.", "quantifier": "all materials, numbers of relaxation mechanisms, partitions and faces", "why_tests_cant": "needs distributed runs of every partitioning and attenuation setting; the error only changes amplitudes", "anchors": ["src/impl/seismic/setup.inc", "src/impl/seismic/solvers/AderDg.hpp:AderDg", "src/impl/seismic/solvers/AderDgInit.hpp:initSrcA", "src/impl/seismic/solvers/AderDgInit.hpp:initFs"]}
{"id": "C113", "title": "Time step of the shallow water solver respects the CFL condition", "statement": "In a time step of the shallow water solver no wave of the initial state moves by more than the given fraction of the diameter of its element; the time step is the largest one with this property.", "quantifier": "all numbers of elements and fused simulations, initial states, diameters and directions", "why_tests_cant": "the bound is for all states, elements and directions", "anchors": ["src/impl/swe/solvers/FiniteVolume.hpp:computeCflTimeStep", "src/impl/swe/solvers/FiniteVolume.hpp:getTimeStepStatistics"]}
{"id": "C114", "title": "Time step of the advection solver respects the CFL condition", "statement": "In a time step of the advection solver the solution moves in no direction and in no element by more than the CFL number, divided by 2*order-1, times the diameter of the element; the bound is attained by some element.", "quantifier": "all numbers of elements, dimensions, orders, velocities, diameters and directions", "why_tests_cant": "the bound is for all velocities, elements and directions", "anchors": ["src/impl/advection/solvers/common.hpp:computeTimeStep", "src/impl/advection/solvers/common.hpp:getTimeStepStatistics"]}
{"id": "C115", "title": "Entities get the types of exactly the domains which contain them", "statement": "Setting sparse types by domains adds to every entity the types of exactly those domains which contain all vertices of the entity; the types it already has are kept.", "quantifier": "all meshes, domains, types and initial types", "why_tests_cant": "holds for all domains, overlaps of domains and combinations of bits", "anchors": ["src/mesh/SparseTypes.hpp:set"]}
{"id": "C116", "title": "Domains contain the points near all of their half-spaces", "statement": "A half-space contains exactly the points which are closer than the tolerance to the half-space given by origin and normal, whatever the length of the normal. A domain contains the points inside all of its half-spaces, and if it contains the vertices of an element, it contains the element.", "quantifier": "all dimensions, origins, normals, points, lists of half-spaces and straight-sided elements", "why_tests_cant": "geometric statement about all points and convex combinations", "anchors": ["src/linalg/HalfSpace.hpp:inside", "src/linalg/HalfSpace.hpp:setNormal", "src/linalg/Domain.hpp:inside"]}
{"id": "C117", "title": "In-diameters of elements", "statement": "The in-diameter which the mesh tool assigns to an element, and which scales the time step of the element, is the diameter of the largest ball (circle) which fits in the element: a ball of this diameter lies in the element and no larger one does. This holds for triangles, tetrahedrons, axis-aligned rectangles and hexahedrons, for every order of the vertices. The volume of a hexahedron is the product of the lengths of its sides.", "quantifier": "All triangles in the plane, tetrahedrons, rectangles and hexahedrons which are not flat, with any order of vertices; all centres and diameters of competing balls.", "why_tests_cant": "A test compares the result with a literature value for a few shapes; that no larger ball fits is a statement about all balls and all points of the element.", "anchors": ["tools/edge_v/src/geom/Tria3.cpp:Tria3::area", "tools/edge_v/src/geom/Tria3.cpp:Tria3::inDiameter", "tools/edge_v/src/geom/Tet4.cpp:Tet4::volume", "tools/edge_v/src/geom/Tet4.cpp:Tet4::inDiameter", "tools/edge_v/src/geom/Quad4r.cpp:Quad4r::inDiameter", "tools/edge_v/src/geom/Hex8r.cpp:Hex8r::inDiameter"]}
{"id": "C118", "title": "Velocity-based mesh refinement", "statement": "Given an expression for the frequency and the number of edges per wave length, the mesh tool derives target edge lengths such that at every vertex at least the requested number of edges fits in the wave length (minimum wave speed over frequency) for every element with this vertex, with equality for one of them, and such that the length of an element is the wave length of its mean speed over the number of edges. The expression sees the centre of the element and the largest ratio of the speeds at its vertices. Values which are not positive stop the tool. The lengths do not depend on the number of threads and the schedule.", "quantifier": "All meshes, wave speeds, expressions, numbers of threads and assignments of elements to threads.", "why_tests_cant": "The expression is user input and the loop over the elements runs in parallel: a test sees one expression on one schedule.", "anchors": ["tools/edge_v/src/mesh/Refinement.cpp:Refinement::init"]}
{"id": "C119", "title": "Centroids of elements", "statement": "The centroids of the elements, at which the mesh tool evaluates the velocity model for the time steps, are the means of the elements' vertices and lie in the elements, whatever was in the memory before.", "quantifier": "All meshes, element types, coordinates and contents of fresh memory.", "why_tests_cant": "The existing test passes an array of zeros; memory fresh from the operating system is often zero too, so that the dependence on uninitialised values does not show.", "anchors": ["tools/edge_v/src/mesh/Mesh.cpp:Mesh::getCentroidsEl", "tools/edge_v/src/geom/Generic.cpp:Generic::centroid", "tools/edge_v/src/main.cpp"]}
{"id": "C120", "title": "Velocity models from gridded data", "statement": "If the wave speeds are given by an expression of position and gridded data (e.g., bathymetry), the speeds which enter the time steps at a vertex, or at the centroid of an element if centroid-based time steps are requested, are those of the expression at this point with the value of the grid at this point, for every number of threads and schedule.", "quantifier": "All grids, expressions, meshes, numbers of threads and assignments of points to threads, with and without centroid-based time steps.", "why_tests_cant": "The data of grid and velocity model are initialised separately in main, which no unit test runs; that both refer to the same points is a property of the sequence of calls.", "anchors": ["tools/edge_v/src/models/GridExpression.cpp:GridExpression::init", "tools/edge_v/src/io/Grid.cpp:Grid::init", "tools/edge_v/src/main.cpp"]}
{"id": "C121", "title": "Bathymetry of elements and dry tolerance", "statement": "The bathymetry (and any other vertex data) of an element in the output of the mesh tool is the mean over the element's vertices, whatever was in the memory before. With a dry tolerance (negative), elements with a negative mean larger than the tolerance obtain the negative tolerance and all others keep their mean, so that no element is shallow; without a dry tolerance in the configuration the default of -25 applies.", "quantifier": "All meshes, bathymetries, tolerances, memory contents and configurations with and without a dry tolerance.", "why_tests_cant": "The code is part of main, which no unit test runs; the claim is about all combinations of signs of tolerance and bathymetry.", "anchors": ["tools/edge_v/src/models/Model.cpp:Model::getElAve", "tools/edge_v/src/main.cpp", "tools/edge_v/src/io/Config.cpp", "tools/edge_v/src/io/Config.h:getModTsunamiDryTol"]}
