{
 "claims": [
  {
   "property": "C01",
   "status": "proved",
   "theorems": [
    "Edge.Time.C01_interval_covered",
    "Edge.Time.C01_history_covered"
   ],
   "note": "Time in exact rationals instead of double; any sequence of steps and intervals."
  },
  {
   "property": "C02",
   "status": "proved",
   "theorems": [
    "Edge.Time.C02_step_bounds",
    "Edge.Time.C02_full_steps"
   ],
   "note": "Exact rationals."
  },
  {
   "property": "C03",
   "status": "proved",
   "theorems": [
    "Edge.Time.C03_twice_as_many",
    "Edge.Time.C03_aligned",
    "Edge.Time.C03_lastTimeStep"
   ],
   "note": "For up to 16 groups (16-bit multiplier, see C04)."
  },
  {
   "property": "C04",
   "status": "partial",
   "theorems": [
    "Edge.Time.C04_multiplier_partial",
    "Edge.Time.C04_multiplier_wraps",
    "Edge.Time.C04_refuted"
   ],
   "note": "Refuted for 17 and more groups (C04_refuted); C04_multiplier_partial proves the claim for at most 16 groups."
  },
  {
   "property": "C05",
   "status": "proved",
   "theorems": [
    "Edge.Sched.C05_neigh_reads_matching_predictions"
   ],
   "note": "All interleavings of one rank; region executions counted by history variables."
  },
  {
   "property": "C06",
   "status": "proved",
   "theorems": [
    "Edge.Sched.C06_no_local_during_neigh",
    "Edge.Sched.C06_dof_updates_exclusive",
    "Edge.Sched.C06_overwrite_after_consumption"
   ],
   "note": "All interleavings of one rank."
  },
  {
   "property": "C07",
   "status": "proved",
   "theorems": [
    "Edge.Sched.C07_no_abort"
   ],
   "note": "All interleavings of one rank."
  },
  {
   "property": "C08",
   "status": "proved",
   "theorems": [
    "Edge.Sched.C08_terminates"
   ],
   "note": "All fair interleavings of one rank; completion of messages is an assumption (fairness)."
  },
  {
   "property": "C09",
   "status": "proved",
   "theorems": [
    "Edge.Sched.C09_once_per_step",
    "Edge.Sched.C09_order",
    "Edge.Sched.C09_finished"
   ],
   "note": "All interleavings of one rank."
  },
  {
   "property": "C10",
   "status": "proved",
   "theorems": [
    "Edge.Sched.C10_send_buffer_idle",
    "Edge.Sched.C10_recv_buffer_idle",
    "Edge.Sched.C10_send_after_write",
    "Edge.Sched.C10_message_count"
   ],
   "note": "MPI back end, one communication buffer."
  },
  {
   "property": "C11",
   "status": "proved",
   "theorems": [
    "Edge.Shared.C11_worker_ids",
    "Edge.Shared.C11_most_urgent",
    "Edge.Shared.C11_status",
    "Edge.Shared.C11_release",
    "Edge.Shared.C11_worker_moves"
   ],
   "note": "Any history of registrations with distinct ids, balancings and status changes; atomic calls."
  },
  {
   "property": "C12",
   "status": "proved",
   "theorems": [
    "Edge.Shared.C12_static_split",
    "Edge.Shared.C12_numa_init",
    "Edge.Shared.C12_numa_init_groups",
    "Edge.Shared.C12_initial_packages"
   ],
   "note": "numaInit (both) in any order of workers; initial packages of a region for rounding that is equal for equal operands."
  },
  {
   "property": "C13",
   "status": "proved",
   "theorems": [
    "Edge.Shared.C13_partition",
    "Edge.Shared.C13_balance_terminates",
    "Edge.Shared.C13_register_terminates"
   ],
   "note": "Any history; measured times and rounding arbitrary (exact rationals with an arbitrary truncation per worker)."
  },
  {
   "property": "C14",
   "status": "proved",
   "theorems": [
    "Edge.Shared.C14_sparse_offsets"
   ],
   "note": "Any history; firstSp of every package."
  },
  {
   "property": "C15",
   "status": "proved",
   "theorems": [
    "Edge.Dist.C15_send_layout",
    "Edge.Dist.C15_recv_layout"
   ],
   "note": "init succeeds for every communication structure whose faces are distinct and inside of the mesh; messages and slots of both directions pairwise disjoint, inside of the allocation, in the buffer meant for the pointer set; faces without communication are null."
  },
  {
   "property": "C16",
   "status": "proved",
   "theorems": [
    "Edge.Dist.C16_ends_agree",
    "Edge.Dist.C16_tags_distinct"
   ],
   "note": "Tags, sizes and slots agree for mirrored channel descriptions; tags distinct if a rank describes each (group, rank, group) once. Integers unbounded (tags are int in the code)."
  },
  {
   "property": "C17",
   "status": "proved",
   "theorems": [
    "Edge.Dist.C17_one_owner",
    "Edge.Dist.C17_all_values"
   ],
   "note": "For every strict total order on the values (doubles without NaN) and fewer than 2^31 ranks."
  },
  {
   "property": "C18",
   "status": "proved",
   "theorems": [
    "Edge.Dist.C18_fin_complete",
    "Edge.Dist.C18_group_idle",
    "Edge.Dist.C18_fin_eventually",
    "Edge.Dist.C18_requests_unique"
   ],
   "note": "All histories of begin, comm and fin calls in which a group is begun only after its previous begin was reported as finished; arbitrary completion behaviour of MPI."
  },
  {
   "property": "C19",
   "status": "proved",
   "theorems": [
    "Edge.Dist.C19_selection",
    "Edge.Dist.C19_sends_match_recvs",
    "Edge.Dist.C19_message_steps"
   ],
   "note": "Selection, equal numbers of sends and receives over matching spans of time, index of the message serving a step. Time groups differing by at most one rate step as in the code."
  },
  {
   "property": "C20",
   "status": "partial",
   "theorems": [
    "Edge.Dist.C20_finSends_refuted",
    "Edge.Dist.C20_finSends_constant"
   ],
   "note": "False of the code: Gaspi::finSends compares the addresses of the counter arrays; proved that no allocation makes it report the counters' relation, and that its answer is constant."
  },
  {
   "property": "C21",
   "status": "proved",
   "theorems": [
    "Edge.Sparse.C21_membership",
    "Edge.Sparse.C21_count",
    "Edge.Sparse.C21_links",
    "Edge.Sparse.C21_links_frame",
    "Edge.Sparse.C21_per_group",
    "Edge.Sparse.C21_group_sum"
   ],
   "note": "nSp, denseToSparse, linkSpDe."
  },
  {
   "property": "C22",
   "status": "proved",
   "theorems": [
    "Edge.Sparse.C22_sub_regions",
    "Edge.Sparse.C22_partition"
   ],
   "note": "subRgnsSpId."
  },
  {
   "property": "C23",
   "status": "proved",
   "theorems": [
    "Edge.Sparse.C23_links_exact"
   ],
   "note": "linkSpSp."
  },
  {
   "property": "C24",
   "status": "partial",
   "theorems": [
    "Edge.Sparse.C24_dst",
    "Edge.Sparse.C24_sst_partial",
    "Edge.Sparse.C24_sst_defined_partial",
    "Edge.Sparse.C24_sst_refuted",
    "Edge.Sparse.C24_dynamic",
    "Edge.Sparse.C24_dynamic_row"
   ],
   "note": "Proved for linkSpAdjDst (flat and dynamic) and nLinkSpAdjDst. linkSpAdjSst leaves the slots of undefined adjacencies unwritten: refuted for arbitrary buffers (C24_sst_refuted), proved for pre-filled buffers or without undefined adjacencies."
  },
  {
   "property": "C25",
   "status": "proved",
   "theorems": [
    "Edge.Sparse.C25_propagation",
    "Edge.Sparse.C25_propagation_dynamic",
    "Edge.Sparse.C25_inherit"
   ],
   "note": "propAdj (both), inherit; arrays of the two entity types are not aliased."
  },
  {
   "property": "C26",
   "status": "proved",
   "theorems": [
    "Edge.Data.C26_nearest"
   ],
   "note": "Collective search of all ranks; the distance (closest point and norm) is an arbitrary function into a strict total order below the initial maximum."
  },
  {
   "property": "C27",
   "status": "proved",
   "theorems": [
    "Edge.Data.C27_layout",
    "Edge.Data.C27_partition",
    "Edge.Data.C27_rejects"
   ],
   "note": "Layout, partition of the entities and rejection of inconsistent tables."
  },
  {
   "property": "C28",
   "status": "proved",
   "theorems": [
    "Edge.Data.C28_adj",
    "Edge.Data.C28_adj_ends",
    "Edge.Data.C28_flex",
    "Edge.Data.C28_flex_disjoint"
   ],
   "note": "flex: reserved memory equals handed out memory, parts disjoint and inside; adj: bijection between pointers and items, messages are contiguous; normal end for one time group with disjoint regions."
  },
  {
   "property": "C29",
   "status": "proved",
   "theorems": [
    "Edge.EdgeV.C29_initial",
    "Edge.EdgeV.C29_stable"
   ],
   "note": "Before normalisation exactly (step of group <= CFL step < step of next group), and after it. double idealised by exact rationals."
  },
  {
   "property": "C30",
   "status": "proved",
   "theorems": [
    "Edge.EdgeV.C30_terminates",
    "Edge.EdgeV.C30_largest",
    "Edge.EdgeV.C30_neighbours",
    "Edge.EdgeV.C30_order"
   ],
   "note": "Terminates for every mesh and assignment, result is the largest smooth assignment below the input, independent of element and face order."
  },
  {
   "property": "C31",
   "status": "proved",
   "theorems": [
    "Edge.EdgeV.C31_sizes"
   ],
   "note": "Exact histogram of a range, entries sum to its size."
  },
  {
   "property": "C32",
   "status": "proved",
   "theorems": [
    "Edge.EdgeV.C32_order",
    "Edge.EdgeV.C32_blocks",
    "Edge.EdgeV.C32_order_noTg"
   ],
   "note": "For every order a (possibly unstable) sort picks among equal priorities; with and without time groups."
  },
  {
   "property": "C33",
   "status": "partial",
   "theorems": [
    "Edge.EdgeV.C33_graph",
    "Edge.EdgeV.C33_weights_partial",
    "Edge.EdgeV.C33_weights_refuted"
   ],
   "note": "Graph proved. Edge weights are written in face order while neighbours are sorted: false in general (C33_weights_refuted), proved for faces in ascending neighbour order."
  },
  {
   "property": "C34",
   "status": "partial",
   "theorems": [
    "Edge.EdgeV.C34_counts_partial",
    "Edge.EdgeV.C34_sum_partial",
    "Edge.EdgeV.C34_refuted"
   ],
   "note": "Trailing empty partitions are not written (C34_refuted); exact up to the largest partition in use."
  },
  {
   "property": "C35",
   "status": "proved",
   "theorems": [
    "Edge.EdgeV.C35_mirrored"
   ],
   "note": "Position by position, for every ordered mesh."
  },
  {
   "property": "C36",
   "status": "proved",
   "theorems": [
    "Edge.EdgeV.C36_faces",
    "Edge.EdgeV.C36_messages",
    "Edge.EdgeV.C36_derived",
    "Edge.EdgeV.C36_gap"
   ],
   "note": "Each cut face once, messages consistent with partitions, groups and adjacency; derivation succeeds without gaps in the partition ids, aborts with one (C36_gap)."
  },
  {
   "property": "C37",
   "status": "proved",
   "theorems": [
    "Edge.Mesh.C37_sparse",
    "Edge.Mesh.C37_total",
    "Edge.Mesh.C37_groups",
    "Edge.Mesh.C37_groups_total"
   ],
   "note": "Types of listed faces: exactly the listed faces get the type, a missing face aborts (C37_sparse), lists of existing faces are accepted (C37_total); all physical groups of a mesh with unsorted faces (C37_groups, C37_groups_total)."
  },
  {
   "property": "C38",
   "status": "partial",
   "theorems": [
    "Edge.EdgeV.C38_index",
    "Edge.EdgeV.C38_values",
    "Edge.EdgeV.C38_total",
    "Edge.EdgeV.C38_size_refuted"
   ],
   "note": "Index and value belong to the grid point closing the cell of the point (C38_index, C38_values); data with one value per grid point is accepted for all points inside (C38_total). That the value read is inside of the data array fails: the checks of the sizes accept too few values (C38_size_refuted)."
  },
  {
   "property": "C39",
   "status": "proved",
   "theorems": [
    "Edge.Mesh.C39_faEl",
    "Edge.Mesh.C39_elements",
    "Edge.Mesh.C39_sortFas",
    "Edge.Mesh.C39_sortLex"
   ],
   "note": "sortLex for every outcome of the unstable sort; faces and neighbours of an element in normOrder; elements of a face; complete normOrder (C39_elements)."
  },
  {
   "property": "C40",
   "status": "proved",
   "theorems": [
    "Edge.Mesh.C40_tria",
    "Edge.Mesh.C40_tet"
   ],
   "note": "normOrder on triangles and tetrahedrons: positive orientation and faces [0,1],[1,2],[2,0] resp. [0,2,1],[0,1,3],[0,3,2],[1,2,3]. Triangles must not be degenerate (hypothesis); tetrahedrons are checked by the code."
  },
  {
   "property": "C41",
   "status": "partial",
   "theorems": [
    "Edge.Cut.C41_triangulation",
    "Edge.Cut.C41_small_refuted",
    "Edge.Cut.C41_written",
    "Edge.Cut.C41_closed",
    "Edge.Cut.C41_closed_unrefined"
   ],
   "note": "C41_triangulation (vertices exist, count, orientation, cover, no overlap), C41_written and C41_closed (all six files; every edge as often in both directions) for grids with at least 4*2^n-3 points per direction; C41_closed_unrefined for all grids without refinement. The constructor accepts smaller refined grids, for which triangles overlap (C41_small_refuted)."
  },
  {
   "property": "C42",
   "status": "partial",
   "theorems": [
    "Edge.Recv.C42_init",
    "Edge.Recv.C42_history",
    "Edge.Recv.C42_no_overflow",
    "Edge.Recv.C42_no_race_partial",
    "Edge.Recv.C42_race_refuted",
    "Edge.Recv.C42_lost_sample_refuted"
   ],
   "note": "Proved for every history of writes, flushes and conditional flushes after an initialisation: files contain exactly the samples in order; no overflow if conditional flushes are close enough; assignment of receivers to elements. Concurrent flushes: safe next to the group which is scheduled and with at most two time groups; with three groups the scheduler flushes during local steps and a sample can be lost."
  },
  {
   "property": "C43",
   "status": "partial",
   "theorems": [
    "Edge.Recv.C43_partial",
    "Edge.Recv.C43_lost_refuted"
   ],
   "note": "Proved for every history of consecutive steps, ranges of elements and flushes if no sample coincides with the end of a step minus the tolerance. Refuted otherwise: this and all later samples are lost."
  },
  {
   "property": "C44",
   "status": "partial",
   "theorems": [
    "Edge.Sources.C44_exact_partial",
    "Edge.Sources.C44_outside_partial",
    "Edge.Sources.C44_error",
    "Edge.Sources.C44_exact_refuted",
    "Edge.Sources.C44_additive_refuted",
    "Edge.Sources.C44_additive_partial",
    "Edge.Sources.C44_defined"
   ],
   "note": "Over the reals. Exact and additive if every interval contains a sample or is outside of the series; refuted for intervals between two samples, with the exact error (C44_error). Defined for every non-empty series (C44_defined)."
  },
  {
   "property": "C45",
   "status": "proved",
   "theorems": [
    "Edge.Sources.C45_apply"
   ],
   "note": "One fused run; every order of the sources of an element which std::sort may return. Localisation and basis evaluation are inputs."
  },
  {
   "property": "C46",
   "status": "proved",
   "theorems": [
    "Edge.Swe.C46_conservative",
    "Edge.Swe.C46_lake",
    "Edge.Swe.C46_mirror",
    "Edge.Swe.C46_upwind",
    "Edge.Swe.C46_gravity_refuted",
    "Edge.Swe.C46_lakeStep"
   ],
   "note": "Over the reals; the default gravity is used in the wave speeds whatever gravity is passed (refuted separately). Includes that a lake at rest is a fixed point of a full time step on every mesh."
  },
  {
   "property": "C47",
   "status": "proved",
   "theorems": [
    "Edge.Swe.C47_volume",
    "Edge.Swe.C47_runs",
    "Edge.Swe.C47_upwind"
   ],
   "note": "For meshes whose element sides are walls or pair up (inner and periodic faces), any wet/dry pattern, positive heights in wet elements; exact arithmetic."
  },
  {
   "property": "C48",
   "status": "partial",
   "theorems": [
    "Edge.Seismic.C48_strength2",
    "Edge.Seismic.C48_locked2",
    "Edge.Seismic.C48_waves2",
    "Edge.Seismic.C48_history2",
    "Edge.Seismic.C48_strength3",
    "Edge.Seismic.C48_locked3",
    "Edge.Seismic.C48_waves3",
    "Edge.Seismic.C48_history3",
    "Edge.Seismic.C48_init2",
    "Edge.Seismic.C48_init3",
    "Edge.Seismic.C48_data_refuted"
   ],
   "note": "Over the reals, for every middle state, state of the sub-face and history: total shear traction within the Coulomb strength, no slip rate unless failing, slip-weakening coefficient monotone along every history; both sides connected by outgoing shear waves. Setup: a sub-face of a domain starts with the static coefficient (C48_init2, C48_init3); with fault data only it does not (C48_data_refuted)."
  },
  {
   "property": "C49",
   "status": "partial",
   "theorems": [
    "Edge.Seismic.C49_direction3",
    "Edge.Seismic.C49_direction2_partial",
    "Edge.Seismic.C49_direction2_refuted"
   ],
   "note": "3D proved. 2D holds when total and background shear stress have the same sign (C49_direction2_partial); refuted otherwise (C49_direction2_refuted)."
  },
  {
   "property": "C50",
   "status": "proved",
   "theorems": [
    "Edge.Seismic.C50_rotate2",
    "Edge.Seismic.C50_inverse2",
    "Edge.Seismic.C50_rotate3",
    "Edge.Seismic.C50_inverse3",
    "Edge.Seismic.C50_rotateInv3",
    "Edge.Seismic.C50_rotateInv2"
   ],
   "note": "Exact arithmetic over an arbitrary field. The rotation is specified by stress tensor R S R^T and velocity R v. 2D: unit normals; 3D: all non-degenerate frames."
  },
  {
   "property": "C51",
   "status": "partial",
   "theorems": [
    "Edge.Seismic.C51_consistent3",
    "Edge.Seismic.C51_acoustic3_refuted",
    "Edge.Seismic.C51_consistent2",
    "Edge.Seismic.C51_consistentA2",
    "Edge.Seismic.C51_mixed2"
   ],
   "note": "Proved for elastic media in 2D and 3D and for acoustic media in 2D. Refuted for acoustic media in 3D: the coefficients contain 0/0 (C51_acoustic3_refuted). Real arithmetic."
  },
  {
   "property": "C52",
   "status": "proved",
   "theorems": [
    "Edge.Linalg.C52_det2",
    "Edge.Linalg.C52_det3",
    "Edge.Linalg.C52_det4",
    "Edge.Linalg.C52_inv2",
    "Edge.Linalg.C52_inv3"
   ],
   "note": "det and inv over an arbitrary ordered field; the inverse is two-sided for every matrix with non-zero determinant, the check of the code fails otherwise."
  },
  {
   "property": "C53",
   "status": "proved",
   "theorems": [
    "Edge.Linalg.C53_csr",
    "Edge.Linalg.C53_csc",
    "Edge.Linalg.C53_crd",
    "Edge.Linalg.C53_dense_csr",
    "Edge.Linalg.C53_transpose",
    "Edge.Linalg.C53_fill",
    "Edge.Linalg.C53_block"
   ],
   "note": "denseToCrd, crdToCsr, crdToCsc, transposeCrd, denseToCsr, denseToCsc (incl. the quad fill-in of fillInQfma) and getBlockNz; values in an arbitrary ordered field."
  },
  {
   "property": "C54",
   "status": "proved",
   "theorems": [
    "Edge.Linalg.C54_product",
    "Edge.Linalg.C54_fusedAC",
    "Edge.Linalg.C54_fusedBC",
    "Edge.Linalg.C54_transpose"
   ],
   "note": "matMulB0, matMulFusedAC, matMulFusedBC, transposeDense for all sizes and leading dimensions; entries outside of the result stay unchanged."
  },
  {
   "property": "C55",
   "status": "proved",
   "theorems": [
    "Edge.Sc.C55_dmpVe",
    "Edge.Sc.C55_dmpFa",
    "Edge.Sc.C55_subcells"
   ],
   "note": "Neighbourhoods through vertices and faces, and the composition with the extrema of sub-cell solutions."
  },
  {
   "property": "C56",
   "status": "proved",
   "theorems": [
    "Edge.Sc.C56_labels",
    "Edge.Sc.C56_adm",
    "Edge.Sc.C56_ext"
   ],
   "note": "Labels, and histories of any number of synchronisation intervals with any numbers of steps."
  },
  {
   "property": "C57",
   "status": "proved",
   "theorems": [
    "Edge.Dg.C57_slower",
    "Edge.Dg.C57_message",
    "Edge.Dg.C57_faster"
   ],
   "note": "Verif/Dg/Lts.lean: data of a faster element after two steps is the sum of its step integrals (C57_slower); the two halves a faster element takes of a slower one are the integrals over the halves of its step and add up to its integral (C57_faster); a message gives exactly the update of direct access for all three relations (C57_message), provided both sides have the same vertex option of the face."
  },
  {
   "property": "C58",
   "status": "partial",
   "theorems": [
    "Edge.Dg.C58_elastic_partial",
    "Edge.Dg.C58_derivatives_refuted",
    "Edge.Dg.C58_prediction_partial",
    "Edge.Dg.C58_relaxation_refuted"
   ],
   "note": "Proved without relaxation mechanisms from the degrees of freedom on (C58_prediction_partial) and for arbitrary derivatives (C58_elastic_partial). With mechanisms the property is violated: evaluation ignores modes which the integration uses (C58_relaxation_refuted, C58_derivatives_refuted)."
  },
  {
   "property": "C59",
   "status": "partial",
   "theorems": [
    "Edge.Dist.C59_transport",
    "Edge.Dist.C59_read_buffer_refuted",
    "Edge.Dist.C59_four_sets",
    "Edge.Dist.C59_one_buffer",
    "Edge.Dist.C59_send_buffer"
   ],
   "note": "Proved for one buffer (MPI), for the transport and for the send side. False of the code for two buffers (GASPI): the neighbouring update uses pointer set (u/2)%2 instead of u%4; refuted for every channel, and the intended index is proved right."
  },
  {
   "property": "C60",
   "status": "proved",
   "theorems": [
    "Edge.Dist.C60_sync_data"
   ],
   "note": "All ranks together; MPI modelled by non-overtaking matching on source, destination and tag."
  },
  {
   "property": "C61",
   "status": "proved",
   "theorems": [
    "Edge.EdgeV.C61_loads"
   ],
   "note": "Totality of the constructor and order of the reported loads; rationals for double."
  },
  {
   "property": "C62",
   "status": "proved",
   "theorems": [
    "Edge.EdgeV.C62_cfl",
    "Edge.EdgeV.C62_absolute"
   ],
   "note": "Rationals for double; wave speeds are an arbitrary function."
  },
  {
   "property": "C63",
   "status": "partial",
   "theorems": [
    "Edge.EdgeV.C63_count_refuted",
    "Edge.EdgeV.C63_count_partial"
   ],
   "note": "False of the code: changes are counted, not elements (C63_count_refuted). Proved: zero is returned exactly if nothing changed."
  },
  {
   "property": "C64",
   "status": "proved",
   "theorems": [
    "Edge.EdgeV.C64_received",
    "Edge.EdgeV.C64_twoFaces"
   ],
   "note": "Given that two elements share at most one face; without it the lists differ (C64_twoFaces)."
  },
  {
   "property": "C65",
   "status": "proved",
   "theorems": [
    "Edge.EdgeV.C65_layout",
    "Edge.EdgeV.C65_paired"
   ],
   "note": "Layout for every structure; pairing for every ordered mesh."
  },
  {
   "property": "C66",
   "status": "proved",
   "theorems": [
    "Edge.EdgeV.C66_counts"
   ],
   "note": "Exact counts."
  },
  {
   "property": "C67",
   "status": "proved",
   "theorems": [
    "Edge.EdgeV.C67_local",
    "Edge.EdgeV.C67_built"
   ],
   "note": "Including success of the whole constructor."
  },
  {
   "property": "C68",
   "status": "proved",
   "theorems": [
    "Edge.EdgeV.C68_exchange",
    "Edge.EdgeV.C68_face"
   ],
   "note": "Composition of Communication.cpp and Distributed::init on two ranks, per channel and per mesh face."
  },
  {
   "property": "C69",
   "status": "proved",
   "theorems": [
    "Edge.Seismic.C69_godunov3",
    "Edge.Seismic.C69_free3",
    "Edge.Seismic.C69_conserves3",
    "Edge.Seismic.C69_godunov2",
    "Edge.Seismic.C69_acoustic2",
    "Edge.Seismic.C69_free2",
    "Edge.Seismic.C69_conserves2"
   ],
   "note": "Real arithmetic. Specification: Rankine-Hugoniot conditions in terms of traction and velocity (FluxSpec.lean), solution unique."
  },
  {
   "property": "C70",
   "status": "proved",
   "theorems": [
    "Edge.Seismic.C70_strain3",
    "Edge.Seismic.C70_free3",
    "Edge.Seismic.C70_strain2",
    "Edge.Seismic.C70_free2"
   ],
   "note": "Real arithmetic."
  },
  {
   "property": "C71",
   "status": "proved",
   "theorems": [
    "Edge.Seismic.C71_star2",
    "Edge.Seismic.C71_star3"
   ],
   "note": "Any field."
  },
  {
   "property": "C72",
   "status": "proved",
   "theorems": [
    "Edge.Seismic.C72_fault2",
    "Edge.Seismic.C72_fault3"
   ],
   "note": "2D and 3D, both orientations of the face, setup and evaluation composed; over the reals, one sub-face and one run at a time."
  },
  {
   "property": "C73",
   "status": "proved",
   "theorems": [
    "Edge.Seismic.C73_rotMat",
    "Edge.Seismic.C73_defined"
   ],
   "note": "Over the reals."
  },
  {
   "property": "C74",
   "status": "partial",
   "theorems": [
    "Edge.Dg.C74_ck_partial",
    "Edge.Dg.C74_volInt",
    "Edge.Dg.C74_elastic_partial",
    "Edge.Dg.C74_relaxation_refuted"
   ],
   "note": "Volume integration proved in full (C74_volInt); the prediction is proved to solve equations with growing relaxation (C74_ck_partial), hence the right ones without attenuation (C74_elastic_partial); with attenuation the property is violated (C74_relaxation_refuted). The block structure of the stiffness matrices, a hypothesis, is proved for the generated matrices of all types and orders (C93_blocks)."
  },
  {
   "property": "C75",
   "status": "proved",
   "theorems": [
    "Edge.Dg.C75_local",
    "Edge.Dg.C75_neigh"
   ],
   "note": "Vanilla kernels and AderDg neighboring update of an element, all faces, boundary conditions and relations of time steps; fused and single kernels with sparse matrices are not modelled."
  },
  {
   "property": "C76",
   "status": "proved",
   "theorems": [
    "Edge.Sc.C76_replace",
    "Edge.Sc.C76_gather",
    "Edge.Sc.C76_resetLimSync"
   ],
   "note": "Replacement of projected by stored solutions, surface sub-cells for the adjacent element, reset of counters."
  },
  {
   "property": "C77",
   "status": "proved",
   "theorems": [
    "Edge.Mesh.C77_neighbours",
    "Edge.Mesh.C77_normalised",
    "Edge.Mesh.C77_connectivity",
    "Edge.Mesh.C77_total"
   ],
   "note": "Constructor: all outcomes of std::sort; conforming meshes are accepted (C77_total) and only these (C77_connectivity); kept by the normalisation (C77_normalised)."
  },
  {
   "property": "C78",
   "status": "partial",
   "theorems": [
    "Edge.Mesh.C78_oneFace",
    "Edge.Mesh.C78_faIdAd",
    "Edge.Mesh.C78_faIdAd_periodic",
    "Edge.Mesh.C78_periodic_refuted",
    "Edge.Mesh.C78_mesh"
   ],
   "note": "Holds for meshes without periodic boundaries if no two elements have the same vertices (C78_mesh), and with periodic boundaries if two elements share at most one face (C78_faIdAd_periodic). Refuted in general: C78_periodic_refuted."
  },
  {
   "property": "C79",
   "status": "proved",
   "theorems": [
    "Edge.Mesh.C79_veIdAd",
    "Edge.Mesh.C79_reversed",
    "Edge.Mesh.C79_periodic"
   ],
   "note": "Faces with common vertices (C79_veIdAd), order of the remaining vertices (C79_reversed); periodic boundaries under the geometric conditions which the search needs (C79_periodic)."
  },
  {
   "property": "C80",
   "status": "proved",
   "theorems": [
    "Edge.Mesh.C80_neighbours",
    "Edge.Mesh.C80_mesh",
    "Edge.Mesh.C80_periodic"
   ],
   "note": "C80_periodic for the insertion of periodic boundaries, C80_mesh for the complete constructor."
  },
  {
   "property": "C81",
   "status": "proved",
   "theorems": [
    "Edge.Mesh.C81_addEntry",
    "Edge.Mesh.C81_normalPoint"
   ],
   "note": "Holds after the reversal of the two elements of periodic faces at the end of the constructor, for every mesh satisfying MeshSpec (C80_mesh)."
  },
  {
   "property": "C82",
   "status": "partial",
   "theorems": [
    "Edge.Cut.C82_depth_partial",
    "Edge.Cut.C82_refuted"
   ],
   "note": "x-direction for all levels, y-direction without refinement; with refinement the differences in y-direction are computed with a wrong index (C82_refuted)."
  },
  {
   "property": "C83",
   "status": "proved",
   "theorems": [
    "Edge.Sched.C83_received_predictions"
   ],
   "note": "Composition of any number of ranks, each executing the scheduler model of C05-C10, with messages per channel in order. The content of a message is given by the numbers of predictions finished by the sender's workers."
  },
  {
   "property": "C84",
   "status": "proved",
   "theorems": [
    "Edge.Sched.C84_all_ranks_finish"
   ],
   "note": "For fair executions in which a send may wait for the matching receive (rendezvous). One synchronisation interval; all ranks start it together."
  },
  {
   "property": "C85",
   "status": "proved",
   "theorems": [
    "Edge.Lts.C85_completes",
    "Edge.Lts.C85_relations",
    "Edge.Lts.C85_neighbours",
    "Edge.Lts.C85_layout",
    "Edge.Lts.C85_ranks",
    "Edge.Lts.C85_mesh_types",
    "Edge.Lts.C85_negative_refuted"
   ],
   "note": "C85_completes (iff), C85_relations (bits), C85_neighbours (opposite relations), C85_layout and C85_ranks (composition with EDGE-V's counts and communication structure: bits on each rank are the relations in the global mesh). C85_mesh_types: non-negative mesh types keep the bits free; C85_negative_refuted: a negative type of the mesh is sign-extended and sets all bits, outside of the claim's quantifier (types are stored as int)."
  },
  {
   "property": "C86",
   "status": "proved",
   "theorems": [
    "Edge.Run.C86_run",
    "Edge.Run.C86_one_per_interval",
    "Edge.Run.C86_groups",
    "Edge.Run.C86_file_number_refuted"
   ],
   "note": "C86_run with the specification Complete; C86_one_per_interval; C86_groups composes with C01. Exact arithmetic. C86_file_number_refuted: for an interval equal to the duration of the run, the setup is not written and file 0 holds the final state (log message says wave field #1)."
  },
  {
   "property": "C87",
   "status": "proved",
   "theorems": [
    "Edge.Run.C87_elements",
    "Edge.Run.C87_files"
   ],
   "note": "C87_elements and C87_files (specification Holds), for sequences of calls sharing the buffers. The conversion to float and the VisIt writer are not modelled."
  },
  {
   "property": "C88",
   "status": "proved",
   "theorems": [
    "Edge.Map.C88_face",
    "Edge.Map.C88_face_none",
    "Edge.Map.C88_neighbour",
    "Edge.Map.C88_faces",
    "Edge.Map.C88_tetMesh",
    "Edge.Map.C88_vertices",
    "Edge.Map.C88_faceVertices",
    "Edge.Map.C88_jacobian",
    "Edge.Map.C88_detTria",
    "Edge.Map.C88_detTet",
    "Edge.Map.C88_detQuad",
    "Edge.Map.C88_detHex",
    "Edge.Map.C88_inverse",
    "Edge.Map.C88_line_aborts",
    "Edge.Map.C88_rotated_refuted"
   ],
   "note": "C88_vertices, C88_faceVertices, C88_jacobian, determinants, C88_inverse (existence, value and uniqueness), C88_face, C88_neighbour, C88_faces and C88_tetMesh (composed with C79). C88_rotated_refuted: rectangles which are not parallel to the axes are accepted by phyToRef, the result is wrong. Field instead of floating point numbers."
  },
  {
   "property": "C89",
   "status": "partial",
   "theorems": [
    "Edge.Map.C89_inside",
    "Edge.Map.C89_one",
    "Edge.Map.C89_two",
    "Edge.Map.C89_interior",
    "Edge.Map.C89_boundary",
    "Edge.Map.C89_outside_partial",
    "Edge.Map.C89_outside_refuted",
    "Edge.Map.C89_meshTet",
    "Edge.Map.C89_closest",
    "Edge.Map.C89_locate",
    "Edge.Map.C89_locate_box",
    "Edge.Map.C89_check_refuted"
   ],
   "note": "A point of the element for which the determinant of a face equals the tolerance is reported as outside (C89_outside_refuted); this is the only exception (C89_outside_partial). The projection to triangles and tetrahedra, done by a library, is an arbitrary function whose result is assumed to be in the element (C89_locate); the check of the coordinates does not establish this (C89_check_refuted)."
  },
  {
   "property": "C90",
   "status": "proved",
   "theorems": [
    "Edge.Quad.C90_quad",
    "Edge.Quad.C90_hex",
    "Edge.Quad.C90_tria",
    "Edge.Quad.C90_tet",
    "Edge.Quad.C90_line1",
    "Edge.Quad.C90_line",
    "Edge.Quad.C90_gauss_exists",
    "Edge.Quad.C90_nodes",
    "Edge.Quad.C90_distinct",
    "Edge.Quad.C90_areaTria",
    "Edge.Quad.C90_volumeTet",
    "Edge.Quad.C90_volumeHex",
    "Edge.Quad.C90_areaQuad",
    "Edge.Quad.C90_pointsTria",
    "Edge.Quad.C90_pointsTet",
    "Edge.Quad.C90_pointsHex",
    "Edge.Quad.C90_onePoint_refuted"
   ],
   "note": "Exactness for all types of elements, sums of the weights and positions of the points for triangles, tetrahedra and cuboids are proved over the real numbers, from the assumption (Gauss) on the library's one-dimensional rule, which can be met for every number of points (C90_gauss_exists) and implies that points are different and inside the interval and weights positive (C90_nodes, C90_distinct). Integrals over triangles and tetrahedra are iterated integrals over the reference element times the determinant. For tetrahedra and one point the weights add up to det/8 instead of det/6 (refuted), against the remark in the code. Rounding and the library FastGL are not modelled."
  },
  {
   "property": "C91",
   "status": "partial",
   "theorems": [
    "Edge.Basis.C91_indexTria",
    "Edge.Basis.C91_indexTet",
    "Edge.Basis.C91_line",
    "Edge.Basis.C91_quad",
    "Edge.Basis.C91_tria",
    "Edge.Basis.C91_hex",
    "Edge.Basis.C91_tet",
    "Edge.Basis.C91_derLine_partial",
    "Edge.Basis.C91_derQuad",
    "Edge.Basis.C91_derTria",
    "Edge.Basis.C91_derHex",
    "Edge.Basis.C91_derTet",
    "Edge.Basis.C91_orthLine",
    "Edge.Basis.C91_orthQuad",
    "Edge.Basis.C91_orthHex",
    "Edge.Basis.C91_orthTria",
    "Edge.Basis.C91_orthTet",
    "Edge.Basis.C91_derLine_refuted",
    "Edge.Basis.C91_vertex_refuted"
   ],
   "note": "Values and derivatives are proved for all types, orders, numbers and points at which no divisor vanishes: every point for lines, rectangles and cuboids, all points with y != 1 for triangles, with z != 1 and y + z != 1 for tetrahedra. Orthogonality with the masses is proved for the code's functions on all reference elements, and the numbering by degrees. Missing because false: derivatives of lines with the documented index 0 (refuted; index 1 returns the derivative), and the points on the boundary of triangles and tetrahedra at which generated formulas divide by zero (refuted with witnesses). Rounding and std::pow are not modelled."
  },
  {
   "property": "C92",
   "status": "proved",
   "theorems": [
    "Edge.Proj.C92_setup",
    "Edge.Proj.C92_basis",
    "Edge.Proj.C92_exact",
    "Edge.Proj.C92_residual",
    "Edge.Proj.C92_best",
    "Edge.Proj.C92_err",
    "Edge.Proj.C92_err_bound",
    "Edge.Proj.C92_err_zero",
    "Edge.Proj.C92_err_unset_refuted",
    "Edge.Proj.C92_massInv"
   ],
   "note": "Proved over the real numbers for lines, rectangles and cuboids parallel to the axes, triangles and tetrahedra, for all orders for which the code has basis functions and rules (o + 1 <= 10, tetrahedra 11), from the assumption (Gauss) on the library's one-dimensional rule and the assumption that the generated mass matrix holds the integrals; both are shown to be met for all types and orders (C92_setup, C90_gauss_exists). Expressions are arbitrary transformations of the bound coordinates and quantities; exprtk itself is not modelled. If an expression leaves quantities unset, the initial values are zero but the error norms use the largest number (C92_err_unset_refuted): the zero error norms hold for expressions which set all quantities. Rounding is not modelled."
  },
  {
   "property": "C93",
   "status": "proved",
   "theorems": [
    "Edge.Gen.C93_basis",
    "Edge.Gen.C93_mass",
    "Edge.Gen.C93_diff",
    "Edge.Gen.C93_weak",
    "Edge.Gen.C93_blocks",
    "Edge.Gen.C93_prediction",
    "Edge.Gen.C93_wave2",
    "Edge.Gen.C93_wave3"
   ],
   "note": "Over the reals, without relaxation mechanisms (with them the prediction is wrong, see C74). The symbolic integration and inversion of sympy are modelled by integrals over the reference elements and matrix inverses; generated numbers are rounded in reality. Rectangles and hexahedra: the residual is the exact one of the truncated Taylor series (C93_prediction)."
  },
  {
   "property": "C94",
   "status": "proved",
   "theorems": [
    "Edge.Flux.C94_maps",
    "Edge.Flux.C94_point",
    "Edge.Flux.C94_local",
    "Edge.Flux.C94_neigh"
   ],
   "note": "C94_local, C94_neigh: integrals over the faces; C94_point: the same physical point; C94_maps: the generator's maps are the solver's (C88). Line elements are not modelled; the rounding of the printed matrices is not modelled."
  },
  {
   "property": "C95",
   "status": "partial",
   "theorems": [
    "Edge.Face.C95_line",
    "Edge.Face.C95_tria",
    "Edge.Face.C95_nanson2",
    "Edge.Face.C95_nanson3",
    "Edge.Face.C95_mesh2",
    "Edge.Face.C95_mesh3",
    "Edge.Face.C95_centroids_partial",
    "Edge.Face.C95_centroids_refuted"
   ],
   "note": "Proved for normals, tangents and areas on all meshes of simplices (C95_mesh2, C95_mesh3) and for the relation to the reference elements (C95_nanson2, C95_nanson3). Refuted for centroids: the coordinates are added to uninitialised memory (C95_centroids_refuted); with zeroed memory they are the averages (C95_centroids_partial)."
  },
  {
   "property": "C96",
   "status": "partial",
   "theorems": [
    "Edge.Fs.C96_godunov3",
    "Edge.Fs.C96_godunov2",
    "Edge.Fs.C96_connectivity",
    "Edge.Fs.C96_self_refuted",
    "Edge.Fs.C96_solvers"
   ],
   "note": "Proved for all meshes in which no element is its own neighbour (C96_solvers, C96_godunov2, C96_godunov3; C96_connectivity for the meshes of the preprocessing). Refuted otherwise: with one layer of quadrilaterals or hexahedrons between periodic boundaries, the right side of a face overwrites the solvers of the left side and scales them twice (C96_self_refuted)."
  },
  {
   "property": "C97",
   "status": "proved",
   "theorems": [
    "Edge.Step.C97_setup3",
    "Edge.Step.C97_setup2",
    "Edge.Step.C97_stored",
    "Edge.Step.C97_full3",
    "Edge.Step.C97_full2",
    "Edge.Step.C97_region3",
    "Edge.Step.C97_mesh3",
    "Edge.Step.C97_region2",
    "Edge.Step.C97_mesh2",
    "Edge.Step.C97_step3",
    "Edge.Step.C97_step2"
   ],
   "note": "C97_mesh3/2: all elements, C97_region3/2: a region with arbitrary data elsewhere (one layer of elements less per step), C97_step3/2: a single element with any neighbors, also with buffers of local time stepping. C97_setup3/2, C97_stored, C97_full3/2: the set-up exists for every mesh without degenerate elements. Exact arithmetic, elastic materials, kernels Vanilla, global time stepping for whole meshes. Examples: rotation of a tetrahedron and of two triangles of different materials with free surfaces; a shear wave in a region of a periodic mesh."
  },
  {
   "property": "C98",
   "status": "proved",
   "theorems": [
    "Edge.Cons.C98_rigid3",
    "Edge.Cons.C98_momentum3",
    "Edge.Cons.C98_angular3",
    "Edge.Cons.C98_rigid2",
    "Edge.Cons.C98_momentum2",
    "Edge.Cons.C98_angular2"
   ],
   "note": "All data, materials, meshes of triangles or tetrahedrons with free-surface and periodic boundaries; real arithmetic; single time group. Specification: elInt, momentum and Closed in Cons/Mesh.lean."
  },
  {
   "property": "C99",
   "status": "proved",
   "theorems": [
    "Edge.Fused.C99_starE2",
    "Edge.Fused.C99_starE3",
    "Edge.Fused.C99_starA2",
    "Edge.Fused.C99_starA3",
    "Edge.Fused.C99_src2",
    "Edge.Fused.C99_src3",
    "Edge.Fused.C99_timePred",
    "Edge.Fused.C99_volInt",
    "Edge.Fused.C99_step",
    "Edge.Fused.C99_surfLocal",
    "Edge.Fused.C99_surfNeigh",
    "Edge.Fused.C99_mesh"
   ],
   "note": "Equality over ordered fields, given the specification of the packed sparse kernels of LIBXSMM (trusted) and matrices without non-zero entries below the tolerance. Constructors are undefined at order one with relaxation mechanisms (findings)."
  },
  {
   "property": "C100",
   "status": "proved",
   "theorems": [
    "Edge.Rate.C100_rigid3",
    "Edge.Rate.C100_momentum3",
    "Edge.Rate.C100_rigid2",
    "Edge.Rate.C100_momentum2"
   ],
   "note": "Real arithmetic, elastic materials without relaxation mechanisms, no sources, no rupture; one partition. The hypotheses on the order of the updates are those of claims C05 and C06, those on the bits of the time relations are those of claim C85."
  },
  {
   "property": "C101",
   "status": "proved",
   "theorems": [
    "Edge.Rate.C101_schedule",
    "Edge.Rate.C101_intervals"
   ],
   "note": "For any field: identical operations on identical values. One partition, no sources, no rupture."
  },
  {
   "property": "C102",
   "status": "proved",
   "theorems": [
    "Edge.Rate.C102_region3",
    "Edge.Rate.C102_mesh3",
    "Edge.Rate.C102_region2",
    "Edge.Rate.C102_mesh2"
   ],
   "note": "Real arithmetic, elastic materials without relaxation mechanisms, no sources, no rupture; one partition. Time steps of the groups as in claim C02."
  },
  {
   "property": "C103",
   "status": "proved",
   "theorems": [
    "Edge.Work.C103_packages",
    "Edge.Work.C103_interval",
    "Edge.Work.C103_threads",
    "Edge.Work.C103_rhythm",
    "Edge.Work.C103_complete"
   ],
   "note": "C103_rhythm: the updates of any reachable state have the rhythm (Ordered of Verif/Rate/Spec.lean); C103_complete: they are complete when the interval is finished; C103_packages: registration and load balancing give a distribution of the elements as required; C103_threads: same results for any two multi-interval runs. Updates of one element are atomic."
  },
  {
   "property": "C104",
   "status": "proved",
   "theorems": [
    "Edge.Work.C104_rigid3",
    "Edge.Work.C104_exact3",
    "Edge.Work.C104_rigid2",
    "Edge.Work.C104_exact2",
    "Edge.Work.C104_interval",
    "Edge.Work.C104_bits"
   ],
   "note": "C104_interval: time steps, rhythm, completeness and duration of an interval; C104_bits: bits of the elements from setLtsTypes; C104_rigid3, C104_rigid2: momentum and angular momentum; C104_exact3, C104_exact2: exactness. Real arithmetic, elastic, one rank, no point sources."
  },
  {
   "property": "C105",
   "status": "proved",
   "theorems": [
    "Edge.Single.C105_setUp",
    "Edge.Single.C105_timePred",
    "Edge.Single.C105_volInt",
    "Edge.Single.C105_surfLocal",
    "Edge.Single.C105_surfNeigh",
    "Edge.Single.C105_step",
    "Edge.Single.C105_run",
    "Edge.Single.C105_sim"
   ],
   "note": "Over fields, so that the result does not depend on the order of summation; LIBXSMM's dense kernels are specified by their documented function (trusted). The conversion needs no further condition than the success of the vanilla kernels and that the recursive sizes do not exceed the number of modes (true for all elements and orders, `one_of`)."
  },
  {
   "property": "C106",
   "status": "proved",
   "theorems": [
    "Edge.Fused.C106_run",
    "Edge.Fused.C106_sim"
   ],
   "note": "C106_run: any updates of any elements in any intervals. C106_sim: simulations of C104 (time steps, threads and work packages of the code). Elastic media (without relaxation mechanisms), point sources and messages left out as in C100 and C104; single steps with relaxation mechanisms are in C99."
  },
  {
   "property": "C107",
   "status": "partial",
   "theorems": [
    "Edge.Advection.C107_upwind_partial",
    "Edge.Advection.C107_conserve",
    "Edge.Advection.C107_uniform",
    "Edge.Advection.C107_first_order_refuted"
   ],
   "note": "Upwind formula for all but tetrahedra with order 1 (C107_upwind_partial); there the code divides the determinant by six although the kernels apply the inverse mass matrix, too: all solvers are six times too large (C107_first_order_refuted). Conservation and uniform flow hold for all (C107_conserve, C107_uniform). Hypotheses: every face lies in its left element, no element is on both sides of a face."
  },
  {
   "property": "C108",
   "status": "proved",
   "theorems": [
    "Edge.Advection.C108_star2",
    "Edge.Advection.C108_star3",
    "Edge.Advection.C108_predict",
    "Edge.Advection.C108_smaller",
    "Edge.Advection.C108_larger",
    "Edge.Advection.C108_step",
    "Edge.Advection.C108_exact"
   ],
   "note": "Exact arithmetic; vanilla kernels; MPI buffers are not modelled. C108_smaller and C108_larger state the data for neighbours with other time steps, C108_step and C108_exact are for meshes with equal time steps."
  },
  {
   "property": "C109",
   "status": "proved",
   "theorems": [
    "Edge.Advection.C109_step",
    "Edge.Advection.C109_run",
    "Edge.Advection.C109_solvers"
   ],
   "note": "Exact arithmetic; equal time steps; C109_solvers connects the balance of the solvers to setupSolvers (C107)."
  },
  {
   "property": "C110",
   "status": "partial",
   "theorems": [
    "Edge.Advection.C110_mass",
    "Edge.Advection.C110_exact_partial"
   ],
   "note": "Exact arithmetic, one partition, equal time steps. The exactness excludes tetrahedra with order 1, for which it is false (factor six in the solvers, C107_first_order_refuted)."
  },
  {
   "property": "C111",
   "status": "proved",
   "theorems": [
    "Edge.Visco.C111_frequencies",
    "Edge.Visco.C111_s_wave",
    "Edge.Visco.C111_p_wave",
    "Edge.Visco.C111_quality",
    "Edge.Visco.C111_positive"
   ],
   "note": "Exact arithmetic. The singular value decomposition of the fit is an arbitrary function; degenerate moduli (zero) are excluded, C111_positive shows that they are positive for non-negative coefficients."
  },
  {
   "property": "C112",
   "status": "partial",
   "theorems": [
    "Edge.Visco.C112_elastic_partial",
    "Edge.Visco.C112_mixed",
    "Edge.Visco.C112_partitions_refuted"
   ],
   "note": "Holds without relaxation mechanisms (C112_elastic_partial). With mechanisms it is false (C112_partitions_refuted): the parameters are exchanged before they are replaced by the elastic ones."
  },
  {
   "property": "C113",
   "status": "partial",
   "theorems": [
    "Edge.Swe.C113_line",
    "Edge.Swe.C113_plane_partial",
    "Edge.Swe.C113_plane_refuted",
    "Edge.Swe.C113_sharp"
   ],
   "note": "Proved in one dimension (C113_line) and for the x-direction in two dimensions (C113_plane_partial); false for the other directions (C113_plane_refuted), because the momentum in y-direction is ignored. The time step is not adapted during the simulation."
  },
  {
   "property": "C114",
   "status": "proved",
   "theorems": [
    "Edge.Advection.Cfl.C114_bound",
    "Edge.Advection.Cfl.C114_sharp"
   ],
   "note": "Exact arithmetic; elements at rest have no bound."
  },
  {
   "property": "C115",
   "status": "proved",
   "theorems": [
    "Edge.Mesh.SetTypes.C115_set"
   ],
   "note": "The query of a domain is an arbitrary function; C116 is about the queries of the code."
  },
  {
   "property": "C116",
   "status": "proved",
   "theorems": [
    "Edge.Mesh.Domain.C116_half_space",
    "Edge.Mesh.Domain.C116_domain",
    "Edge.Mesh.Domain.C116_convex"
   ],
   "note": "Exact arithmetic; the zero vector as a normal is excluded."
  },
  {
   "property": "C117",
   "status": "proved",
   "theorems": [
    "Edge.EdgeV.InDia.C117_tet",
    "Edge.EdgeV.InDia.C117_tria",
    "Edge.EdgeV.InDia.C117_quad",
    "Edge.EdgeV.InDia.C117_hex"
   ],
   "note": "Simplices: any vertices with non-zero area or volume. Boxes: axis-aligned, as in the code."
  },
  {
   "property": "C118",
   "status": "partial",
   "theorems": [
    "Edge.EdgeV.Refine.C118_lengths_partial",
    "Edge.EdgeV.Refine.C118_check",
    "Edge.EdgeV.Refine.C118_schedules_refuted"
   ],
   "note": "Proved for all expressions which determine both values in every element (for all schedules). For expressions which leave a value unassigned in some elements the claim is false: C118_schedules_refuted."
  },
  {
   "property": "C119",
   "status": "partial",
   "theorems": [
    "Edge.EdgeV.Centroid.C119_centroids_partial",
    "Edge.EdgeV.Centroid.C119_memory",
    "Edge.EdgeV.Centroid.C119_memory_refuted"
   ],
   "note": "The code adds to uninitialised memory: the centroids are right exactly if this memory holds zeros (C119_memory); the claim as stated is false (C119_memory_refuted)."
  },
  {
   "property": "C120",
   "status": "partial",
   "theorems": [
    "Edge.EdgeV.GridExpr.C120_vertices_partial",
    "Edge.EdgeV.GridExpr.C120_centroids",
    "Edge.EdgeV.GridExpr.C120_bounds_refuted",
    "Edge.EdgeV.GridExpr.C120_centroids_refuted"
   ],
   "note": "Proved for vertex-based time steps. False for centroid-based ones: C120_centroids gives the value which is used instead, C120_centroids_refuted and C120_bounds_refuted are the counterexamples."
  },
  {
   "property": "C121",
   "status": "partial",
   "theorems": [
    "Edge.EdgeV.Bath.C121_average",
    "Edge.EdgeV.Bath.C121_dry_partial",
    "Edge.EdgeV.Bath.C121_land_refuted",
    "Edge.EdgeV.Bath.C121_default_refuted"
   ],
   "note": "Means are proved. The dry tolerance is as documented apart from land lower than the negative tolerance (C121_land_refuted); the default tolerance is lost (C121_default_refuted)."
  }
 ]
}