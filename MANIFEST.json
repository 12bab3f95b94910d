{
 "claims": [
  {
   "property": "C01",
   "status": "proved",
   "theorems": [
    "Sparse.C01_coo_to_csr_exact",
    "Sparse.C01_coo_to_csr"
   ],
   "note": "Numbers of entries at and above the largest index value: C01_coo_to_csr_exact."
  },
  {
   "property": "C02",
   "status": "proved",
   "theorems": [
    "Sparse.C02_coo_to_csc_exact",
    "Sparse.C02_coo_to_csc"
   ],
   "note": "As C01."
  },
  {
   "property": "C03",
   "status": "proved",
   "theorems": [
    "Sparse.C03_csr_to_csc"
   ],
   "note": "Row indices must be representable (rows <= I::MAX + 1)."
  },
  {
   "property": "C04",
   "status": "proved",
   "theorems": [
    "Sparse.C04_csc_to_csr",
    "Sparse.C04_csc_tocsr_kernel",
    "Sparse.C04_roundtrip"
   ],
   "note": "Column indices must be representable; the round trip is C04_roundtrip."
  },
  {
   "property": "C05",
   "status": "partial",
   "theorems": [
    "Sparse.C05_csc_to_coo",
    "Sparse.C05_csr_to_coo_partial",
    "Sparse.C05_csr_to_coo_slack",
    "Sparse.C05_csr_to_coo_counterexample",
    "Sparse.C05_csr_to_coo_leftover",
    "Sparse.C05_csr_to_coo_uneven"
   ],
   "note": "CSC: full. CSR: proved without unused storage; C05_csr_to_coo_slack and C05_csr_to_coo_leftover give the result in general (the unused pairs become entries of row 0), C05_csr_to_coo_uneven the panic on arrays of different lengths, and C05_csr_to_coo_counterexample proves the full statement false (unused storage becomes extra entries in row 0, arrays of different lengths panic)."
  },
  {
   "property": "C06",
   "status": "proved",
   "theorems": [
    "Sparse.C06_coo_to_dense",
    "Sparse.C06_csr_to_dense",
    "Sparse.C06_csr_todense_kernel",
    "Sparse.C06_csc_to_dense",
    "Sparse.C06_coo_todense_kernel"
   ],
   "note": ""
  },
  {
   "property": "C07",
   "status": "proved",
   "theorems": [
    "Sparse.C07_csr_exact",
    "Sparse.C07_csc_exact",
    "Sparse.C07_second_call_panics",
    "Sparse.C07_csr_sum_duplicates",
    "Sparse.C07_csc_sum_duplicates"
   ],
   "note": "Behaviour at I::MAX entries: C07_csr_exact, C07_csc_exact; the panic there is shown on a concrete matrix by C07_second_call_panics."
  },
  {
   "property": "C08",
   "status": "proved",
   "theorems": [
    "Sparse.C08_csr_sort_indexes",
    "Sparse.C08_csc_sort_indexes"
   ],
   "note": ""
  },
  {
   "property": "C09",
   "status": "partial",
   "theorems": [
    "Sparse.C09_csr_has_canonical_partial",
    "Sparse.C09_csc_has_canonical_partial",
    "Sparse.C09_has_canonical_overflow",
    "Sparse.C09_csr_has_canonical_boundary",
    "Sparse.C09_csc_has_canonical_boundary"
   ],
   "note": "Proved for every valid matrix in which no row starts at position I::MAX. The full statement is false: the boundary theorems prove that for every other valid matrix the call answers false if the matrix is not canonical and panics on overflow if it is (C09_has_canonical_overflow is a concrete case)."
  },
  {
   "property": "C10",
   "status": "partial",
   "theorems": [
    "Sparse.C10_csr_has_sorted_partial",
    "Sparse.C10_csr_has_sorted_panics",
    "Sparse.C10_csc_has_sorted_partial",
    "Sparse.C10_csc_has_sorted_panics"
   ],
   "note": "The full statement is false: proved that the function panics on every valid matrix whose first row (column) is empty and decides sortedness on every other valid matrix."
  },
  {
   "property": "C11",
   "status": "proved",
   "theorems": [
    "Sparse.C11_csr_mat_vec",
    "Sparse.C11_csr_mul_vec",
    "Sparse.C11_csr_matvec_kernel"
   ],
   "note": "Scalars are a (non-associative) semiring; floating point up to reassociation."
  },
  {
   "property": "C12",
   "status": "proved",
   "theorems": [
    "Sparse.C12_csc_mat_vec",
    "Sparse.C12_csc_mul_vec",
    "Sparse.C12_csc_matvec_kernel",
    "Sparse.C12_coo_matvec_kernel"
   ],
   "note": "As C11."
  },
  {
   "property": "C13",
   "status": "proved",
   "theorems": [
    "Sparse.C13_csr_mat_mat",
    "Sparse.C13_csr_mat_mat_err",
    "Sparse.C13_slots_le"
   ],
   "note": "Number of product positions with stored contributions representable in I."
  },
  {
   "property": "C14",
   "status": "proved",
   "theorems": [
    "Sparse.C14_csc_mat_mat",
    "Sparse.C14_csc_mat_mat_err",
    "Sparse.C14_csc_mul_csr",
    "Sparse.C14_slots_le"
   ],
   "note": "Number of product positions with stored contributions representable in I; scalar multiplication commutative."
  },
  {
   "property": "C15",
   "status": "proved",
   "theorems": [
    "Sparse.C15_csr_add",
    "Sparse.C15_csr_sub"
   ],
   "note": "Combined number of stored entries below the largest index value."
  },
  {
   "property": "C16",
   "status": "partial",
   "theorems": [
    "Sparse.C16_counterexample",
    "Sparse.C16_fewer_rows_partial",
    "Sparse.C16_add_dropped_rows",
    "Sparse.C16_sub_dropped_rows",
    "Sparse.C16_wider_canonical",
    "Sparse.C16_wider_fails"
   ],
   "note": "The full statement is false. The behaviour is characterised for every pair of shapes (stored entries together below the largest index value): fewer rows on the right never returns a matrix; otherwise, if the first rows fit, surplus rows are dropped silently; if they reach beyond the width, canonical operands give a matrix with entries outside its declared width and other operands never return."
  },
  {
   "property": "C17",
   "status": "proved",
   "theorems": [
    "Sparse.C17_binop",
    "Sparse.C17_paths_agree",
    "Sparse.C17_mul",
    "Sparse.C17_div",
    "Sparse.C17_add",
    "Sparse.C17_sub",
    "Sparse.C17_max_min",
    "Sparse.C17_strict",
    "Sparse.C17_weak",
    "Sparse.C17_eq_unstored"
   ],
   "note": "Combined number of stored entries below the largest index value; eq/le/ge report false at positions stored in neither operand, which C17_eq_unstored states."
  },
  {
   "property": "C18",
   "status": "proved",
   "theorems": [
    "Sparse.C18_csc_add",
    "Sparse.C18_csc_subtract",
    "Sparse.C18_csc_shape_err",
    "Sparse.C18_csc_add_op"
   ],
   "note": "Combined number of stored entries below the largest index value."
  },
  {
   "property": "C19",
   "status": "partial",
   "theorems": [
    "Sparse.C19_csc_sub_panics",
    "Sparse.C19_csc_sub_counterexample"
   ],
   "note": "The full statement is false: C19_csc_sub_panics and C19_csc_sub_counterexample show the operator swaps the pointer and index arrays."
  },
  {
   "property": "C20",
   "status": "partial",
   "theorems": [
    "Sparse.C20_csr_mul_scalar",
    "Sparse.C20_csr_scalar_mul",
    "Sparse.C20_csc_scalar_panics",
    "Sparse.C20_csc_scalar_counterexample"
   ],
   "note": "CSR: full. The CSC statement is false: C20_csc_scalar_panics and C20_csc_scalar_counterexample (colptr and rowidx are swapped in the constructor call), so nothing positive can be proved for CSC."
  },
  {
   "property": "C21",
   "status": "proved",
   "theorems": [
    "Sparse.C21_csr_neg",
    "Sparse.C21_csc_neg",
    "Sparse.C21_coo_neg"
   ],
   "note": ""
  },
  {
   "property": "C22",
   "status": "proved",
   "theorems": [
    "Sparse.C22_csr_select",
    "Sparse.C22_csr_select_err",
    "Sparse.C22_csc_select",
    "Sparse.C22_csc_select_err",
    "Sparse.C22_select_dim_panics",
    "Sparse.C22_pick_le"
   ],
   "note": "Rows and columns of the matrix, and the number of picked entries, representable in I; C22_select_dim_panics proves the panic when a dimension is not representable."
  },
  {
   "property": "C23",
   "status": "proved",
   "theorems": [
    "Sparse.C23_submatrix"
   ],
   "note": "Window bounds representable in I (they are passed as values of I)."
  },
  {
   "property": "C24",
   "status": "proved",
   "theorems": [
    "Sparse.C24_csr_diagonal",
    "Sparse.C24_csc_diagonal",
    "Sparse.C24_coo_diagonal",
    "Sparse.C24_csr_diagonal_kernel",
    "Sparse.C24_csc_diagonal_kernel",
    "Sparse.C24_diagonal_out_of_range"
   ],
   "note": "C24_diagonal_out_of_range: offsets outside the matrix make the public kernel panic."
  },
  {
   "property": "C25",
   "status": "proved",
   "theorems": [
    "Sparse.C25_csr_transpose",
    "Sparse.C25_csc_transpose",
    "Sparse.C25_coo_transpose"
   ],
   "note": ""
  },
  {
   "property": "C26",
   "status": "partial",
   "theorems": [
    "Sparse.C26_v_stack",
    "Sparse.C26_h_stack",
    "Sparse.C26_v_stack3",
    "Sparse.C26_h_stack3",
    "Sparse.C26_csr_h_stack_partial",
    "Sparse.C26_csr_h_stack_counterexample",
    "Sparse.C26_csr_h_stack_leftover",
    "Sparse.C26_csr_h_stack_uneven"
   ],
   "note": "Coo stacking: full, provided the stacked dimension is representable. CSR::h_stack: proved for operands without unused storage; C26_csr_h_stack_leftover and C26_csr_h_stack_uneven say what it does with unused storage; C26_csr_h_stack_counterexample shows it fails otherwise (see C05)."
  },
  {
   "property": "C27",
   "status": "partial",
   "theorems": [
    "Sparse.C27_coo_compose",
    "Sparse.C27_coo_compose_err",
    "Sparse.C27_coo_compose_counterexample",
    "Sparse.C27_coo_compose_own_widths",
    "Sparse.C27_coo_compose3",
    "Sparse.C27_coo_compose3_err",
    "Sparse.C27_csc_compose",
    "Sparse.C27_csc_compose_err"
   ],
   "note": "The assembled matrix is proved correct whenever all block dimensions agree (Coo::compose, compose3, CSC::compose). Err is proved for different heights in a block row and different total widths, for compose, compose3 and CSC::compose. C27_coo_compose_counterexample shows that mismatching block widths with equal totals are accepted; C27_coo_compose_own_widths says what is then returned."
  },
  {
   "property": "C28",
   "status": "proved",
   "theorems": [
    "Sparse.C28_upper",
    "Sparse.C28_upper_overflow"
   ],
   "note": "When row + k is representable for every stored row; otherwise the call panics (C28_upper_overflow)."
  },
  {
   "property": "C29",
   "status": "proved",
   "theorems": [
    "Sparse.C29_eliminate_zeros"
   ],
   "note": ""
  },
  {
   "property": "C30",
   "status": "proved",
   "theorems": [
    "Sparse.C30_dok_updates",
    "Sparse.C30_dok_new",
    "Sparse.C30_dok_dim_panics"
   ],
   "note": "Dimensions representable in I; C30_dok_dim_panics covers the other case."
  },
  {
   "property": "C31",
   "status": "proved",
   "theorems": [
    "Sparse.C31_dok_invariant"
   ],
   "note": ""
  },
  {
   "property": "C32",
   "status": "proved",
   "theorems": [
    "Sparse.C32_dok_conversions"
   ],
   "note": "Number of stored entries smaller than I::MAX, as in C01 and C02."
  },
  {
   "property": "C33",
   "status": "proved",
   "theorems": [
    "Sparse.C33_dok_from_dense",
    "Sparse.C33_csr_from_dense",
    "Sparse.C33_from_dense_empty",
    "Sparse.C33_csc_from_dense",
    "Sparse.C33_coo_from_dense"
   ],
   "note": "Dimensions representable in I. An empty dense array makes CSR/CSC::from_dense panic (C33_from_dense_empty)."
  },
  {
   "property": "C34",
   "status": "proved",
   "theorems": [
    "Sparse.C34_undirected_components",
    "Sparse.C34_nonsquare"
   ],
   "note": "For every valid square graph whose number of nodes the index type can enumerate (rows <= MAX+1, needed by the transpose conversion)."
  },
  {
   "property": "C35",
   "status": "partial",
   "theorems": [
    "Sparse.C35_strong_components_partial",
    "Sparse.C35_after_sum_duplicates",
    "Sparse.C35_no_nodes_panics",
    "Sparse.C35_duplicate_edge_panics",
    "Sparse.C35_duplicate_edge_wrong",
    "Sparse.C35_always_in_bounds"
   ],
   "note": "Proved for every valid square graph with at least one node and without duplicate entries off the diagonal. The full statement is false: C35_no_nodes_panics and C35_duplicate_edge_panics prove that the graph without nodes and a graph storing an edge twice make the search panic, and C35_duplicate_edge_wrong proves that a strongly connected graph with one edge stored twice gets a wrong answer (count 0, three labels) without a panic. Whether the search terminates on every graph with repeated entries is open: no non-terminating graph was found, none is excluded by a proof. C35_always_in_bounds proves for every valid square graph, duplicates or not, that the search never leaves its arrays and that whatever it returns has one label in range per node and at most as many components as nodes. C35_after_sum_duplicates shows that calling sum_duplicates first gives the right answer on every valid square graph with at least one node."
  },
  {
   "property": "C36",
   "status": "partial",
   "theorems": [
    "Sparse.C36_csr_components_partial",
    "Sparse.C36_any_pattern",
    "Sparse.C36_no_edges_error",
    "Sparse.C36_nonsquare"
   ],
   "note": "Proved for every pattern that has an edge (or no node at all), with a flag type that holds -2 and the component numbers. The full statement is false: C36_no_edges_error proves that a graph with nodes but no edges yields an error instead of zero components."
  },
  {
   "property": "C37",
   "status": "proved",
   "theorems": [
    "Sparse.C37_depth_first_nodes",
    "Sparse.C37_nonsquare",
    "Sparse.C37_bad_start_panics"
   ],
   "note": "Rejection of non-square graphs and the panic on a start node outside the graph are separate theorems."
  },
  {
   "property": "C38",
   "status": "proved",
   "theorems": [
    "Sparse.C38_depth_first_tree"
   ],
   "note": "For directed graphs additionally: the child taken is the first unlisted successor in storage order."
  },
  {
   "property": "C39",
   "status": "proved",
   "theorems": [
    "Sparse.C39_csr_scale_rows",
    "Sparse.C39_csr_scale_columns"
   ],
   "note": ""
  },
  {
   "property": "C40",
   "status": "proved",
   "theorems": [
    "Sparse.C40_csr_matvecs",
    "Sparse.C40_csc_matvecs"
   ],
   "note": ""
  },
  {
   "property": "C41",
   "status": "partial",
   "theorems": [
    "Sparse.C41_row_index",
    "Sparse.C41_row_slice_partial",
    "Sparse.C41_row_slice_diverges"
   ],
   "note": "row_index is proved in full. row_slice is proved for positive steps and for step 0 with start <= stop; the full statement is false: C41_row_slice_diverges proves that step 0 with stop < start never returns."
  },
  {
   "property": "C42",
   "status": "proved",
   "theorems": [
    "Sparse.C42_column_index"
   ],
   "note": "Number of requested columns and of resulting entries representable in I."
  },
  {
   "property": "C43",
   "status": "partial",
   "theorems": [
    "Sparse.C43_count_diagonals_partial",
    "Sparse.C43_below_panics"
   ],
   "note": "The full statement is false: C43_below_panics proves the usize subtraction underflows on any entry below the diagonal. Proved for every valid matrix without such entries."
  },
  {
   "property": "C44",
   "status": "proved",
   "theorems": [
    "Sparse.C44_csr_new",
    "Sparse.C44_csc_new",
    "Sparse.C44_coo_new"
   ],
   "note": ""
  },
  {
   "property": "C45",
   "status": "partial",
   "theorems": [
    "Sparse.C45_csr_get_first",
    "Sparse.C45_csr_get_partial",
    "Sparse.C45_csr_get_canonical_partial",
    "Sparse.C45_csr_get_counterexample",
    "Sparse.C45_csr_get_out_of_range"
   ],
   "note": "True for rows without duplicate columns; C45_csr_get_first gives the exact behaviour for all valid matrices and C45_csr_get_counterexample refutes the full statement."
  },
  {
   "property": "C46",
   "status": "proved",
   "theorems": [
    "Sparse.C46_csr_views",
    "Sparse.C46_csc_views",
    "Sparse.C46_coo_views",
    "Sparse.C46_real_plus_imag"
   ],
   "note": "Complex numbers are pairs over any commutative ring; Complex64 rounding is not modelled. The view constructors take the arrays as given."
  },
  {
   "property": "C47",
   "status": "proved",
   "theorems": [
    "Sparse.C47_csr_with_diagonal",
    "Sparse.C47_csc_with_diagonal",
    "Sparse.C47_with_diagonal_too_big",
    "Sparse.C47_coo_with_diagonal",
    "Sparse.C47_coo_identity",
    "Sparse.C47_with_size"
   ],
   "note": ""
  },
  {
   "property": "C48",
   "status": "proved",
   "theorems": [
    "Sparse.C48_coo_add"
   ],
   "note": ""
  },
  {
   "property": "C49",
   "status": "proved",
   "theorems": [
    "Sparse.C49_coo_to_string",
    "Sparse.C49_csr_to_string",
    "Sparse.C49_csc_to_string",
    "Sparse.C49_dok_to_string",
    "Sparse.C49_csr_table",
    "Sparse.C49_csr_to_table"
   ],
   "note": "The scalar formatter (Display or pretty_string) and the column layout of the tabwriter crate are parameters of the model; the line structure, positions and order are proved."
  },
  {
   "property": "C50",
   "status": "partial",
   "theorems": [
    "Sparse.C50_compositions_partial",
    "Sparse.C50_observed_partial",
    "Sparse.C50_mat_vec_partial",
    "Sparse.C50_agree_partial",
    "Sparse.C50_csc_counterexample"
   ],
   "note": "Proved for every finite expression over the three formats (conversions, transposes, negation, sums, differences, products, scaling, sorting, duplicate summation, stacking, block composition, upper triangles, row and column selection, and the constructors with_size, with_diagonal, identity and from_dense), together with what to_dense, diagonal and mat_vec return for the result, that avoids the CSC operator - and CSC scalar multiples and whose given CSR and CSC matrices have no unused storage. The full statement is false: C50_csc_counterexample proves that the CSC operator - and the CSC scalar multiple panic; the coordinate conversion of a CSR matrix with unused storage is C05. C111_programs: without exceptions if these operators are replaced by CSC::subtract and by scaling the transpose."
  },
  {
   "property": "C51",
   "status": "partial",
   "theorems": [
    "Sparse.C51_eigs_rejects",
    "Sparse.C51_eigs_empty_panics",
    "Sparse.C51_eigs_request_panics",
    "Sparse.C51_eigs_product",
    "Sparse.C51_eigs_result_partial",
    "Sparse.C51_eigs_values_counterexample",
    "Sparse.C51_eigs_vector_counterexample",
    "Sparse.C51_eigs_zero_nev_accepted"
   ],
   "note": "Proved for every behaviour of the foreign library (a parameter of the model): argument rejection, the panics on an empty matrix and on product requests that do not target the last third of the work array, the matrix products performed, the number of results, the real parts and the complex-pair vectors. The full statement is false: C51_eigs_values_counterexample and C51_eigs_vector_counterexample. The reverse-communication loop is modelled with fuel."
  },
  {
   "property": "C52",
   "status": "partial",
   "theorems": [
    "Sparse.C52_naupd_preconditions",
    "Sparse.C52_large_basis_fails",
    "Sparse.C52_zero_nev_counterexample",
    "Sparse.C52_neupd_counterexample"
   ],
   "note": "The dnaupd calls meet the documented preconditions when nev > 0 (C52_naupd_preconditions) and the basis has fewer than about 26753 vectors. The full statement is false: for larger bases the 32-bit length argument wraps to a negative number and a library that checks it makes eigs fail (C52_large_basis_fails), nev = 0 is passed on (C52_zero_nev_counterexample) and dneupd receives a leading dimension larger than the vectors array has rows (C52_neupd_counterexample)."
  },
  {
   "property": "C53",
   "status": "proved",
   "theorems": [
    "Sparse.C53_csr_to_csc",
    "Sparse.C53_csc_to_csr",
    "Sparse.C53_csc_to_coo",
    "Sparse.C53_csr_to_coo",
    "Sparse.C53_csr_sort_indexes",
    "Sparse.C53_csc_sort_indexes",
    "Sparse.C53_transpose",
    "Sparse.C53_eliminate_zeros"
   ],
   "note": "Number of rows (columns) at most I::MAX + 1 for the conversions, as in C03-C05."
  },
  {
   "property": "C54",
   "status": "proved",
   "theorems": [
    "Sparse.C54_coo_to_csr",
    "Sparse.C54_coo_to_csc",
    "Sparse.C54_csr_sum_duplicates",
    "Sparse.C54_csc_sum_duplicates"
   ],
   "note": "Number of entries below the largest index value, as in C01, C02, C07."
  },
  {
   "property": "C55",
   "status": "proved",
   "theorems": [
    "Sparse.C55_to_dense"
   ],
   "note": ""
  },
  {
   "property": "C56",
   "status": "proved",
   "theorems": [
    "Sparse.C56_csr_mat_vec",
    "Sparse.C56_csc_mat_vec",
    "Sparse.C56_coo_matvec"
   ],
   "note": ""
  },
  {
   "property": "C57",
   "status": "proved",
   "theorems": [
    "Sparse.C57_csr_mat_mat",
    "Sparse.C57_csc_mat_mat"
   ],
   "note": "Number of product positions with stored contributions representable in I, as in C13 and C14."
  },
  {
   "property": "C58",
   "status": "proved",
   "theorems": [
    "Sparse.C58_binop",
    "Sparse.C58_csr_add_sub",
    "Sparse.C58_csc_add_subtract",
    "Sparse.C58_paths_differ"
   ],
   "note": "Combined number of stored entries below the largest index value. C58_paths_differ shows that the two cases of the statement differ on a scalar with a negative zero. The CSC operator - is C19."
  },
  {
   "property": "C59",
   "status": "partial",
   "theorems": [
    "Sparse.C59_pretty_complex_partial",
    "Sparse.C59_pretty_complex_counterexample"
   ],
   "note": "Proved for non-negative imaginary parts. False as stated: with a formatter that writes a minus sign, every negative imaginary part is printed with two signs (C59_pretty_complex_counterexample)."
  },
  {
   "property": "C60",
   "status": "proved",
   "theorems": [
    "Sparse.C60_csr_values_mut",
    "Sparse.C60_csc_values_mut",
    "Sparse.C60_coo_values_mut"
   ],
   "note": ""
  },
  {
   "property": "C61",
   "status": "proved",
   "theorems": [
    "Sparse.C61_coo_csr_csc",
    "Sparse.C61_coo_csc_csr",
    "Sparse.C61_coo_transpose",
    "Sparse.C61_csr_coo",
    "Sparse.C61_csc_coo",
    "Sparse.C61_double_convert_sorts"
   ],
   "note": "Number of entries below the largest index value and row (column) numbers representable in I where the target needs them; to_coo of CSR needs a matrix without unused storage (see C05)."
  },
  {
   "property": "C62",
   "status": "proved",
   "theorems": [
    "Sparse.C62_coo_order",
    "Sparse.C62_coo_order_nodup"
   ],
   "note": "Number of entries below the largest index value."
  },
  {
   "property": "C63",
   "status": "proved",
   "theorems": [
    "Sparse.C63_unique",
    "Sparse.C63_add_comm",
    "Sparse.C63_add_assoc"
   ],
   "note": "Combined number of stored entries below the largest index value."
  },
  {
   "property": "C64",
   "status": "proved",
   "theorems": [
    "Sparse.C64_mutual_exclusion",
    "Sparse.C64_never_poisoned",
    "Sparse.C64_calls_atomic",
    "Sparse.C64_no_deadlock"
   ],
   "note": "The foreign library is a parameter with arbitrary static variables. A panic of the library itself cannot occur: it is foreign code."
  },
  {
   "property": "C65",
   "status": "partial",
   "theorems": [
    "Sparse.C65_outcome_sequential",
    "Sparse.C65_isolated_partial",
    "Sparse.C65_completes_partial",
    "Sparse.C65_counterexample"
   ],
   "note": "Proved for every library whose answers do not depend on static variables (C65_isolated_partial, C65_completes_partial); for every library the outcome is that of a sequential run with some contents of the static variables at each call (C65_outcome_sequential). The full statement is false: the lock is given up between the calls of one computation (C65_counterexample)."
  },
  {
   "property": "C66",
   "status": "partial",
   "theorems": [
    "Sparse.C66_v_stack",
    "Sparse.C66_h_stack",
    "Sparse.C66_stack3",
    "Sparse.C66_coo_compose",
    "Sparse.C66_coo_compose3",
    "Sparse.C66_csc_compose",
    "Sparse.C66_csr_h_stack_partial",
    "Sparse.C66_coo_add",
    "Sparse.C66_upper",
    "Sparse.C66_csr_select",
    "Sparse.C66_csc_select",
    "Sparse.C66_submatrix",
    "Sparse.C66_column_index",
    "Sparse.C66_from_dense"
   ],
   "note": "All operations except CSR h_stack are covered in full. CSR h_stack is proved for operands without unused storage (C66_csr_h_stack_partial); with unused storage it fails or takes values from the unused part (C05, C26)."
  },
  {
   "property": "C67",
   "status": "proved",
   "theorems": [
    "Sparse.C67_csr_diagonal",
    "Sparse.C67_csc_diagonal",
    "Sparse.C67_coo_diagonal",
    "Sparse.C67_diagonal_kernels",
    "Sparse.C67_csr_matvecs",
    "Sparse.C67_csc_matvecs"
   ],
   "note": "For the multi-vector kernels the input and output buffers are long enough."
  },
  {
   "property": "C68",
   "status": "proved",
   "theorems": [
    "Sparse.C68_csr_scalar",
    "Sparse.C68_neg",
    "Sparse.C68_complex",
    "Sparse.C68_scale",
    "Sparse.C68_with_diagonal",
    "Sparse.C68_identity"
   ],
   "note": "For constructors the size is representable in the index type. CSC scalar multiplication is excluded (C20 shows it is wrong)."
  },
  {
   "property": "C69",
   "status": "proved",
   "theorems": [
    "Sparse.C69_coo",
    "Sparse.C69_csr",
    "Sparse.C69_csc",
    "Sparse.C69_dok",
    "Sparse.C69_graph",
    "Sparse.C69_expressions"
   ],
   "note": ""
  },
  {
   "property": "C70",
   "status": "partial",
   "theorems": [
    "Sparse.C70_right_or_overflow_partial",
    "Sparse.C70_observed_partial",
    "Sparse.C70_csc_counterexample"
   ],
   "note": "Proved for all expressions that use neither the operator - nor scalar multiplication on CSC matrices; with these the statement is false (C19, C20, C70_csc_counterexample: a wrong matrix is returned). C111_overflow: without exceptions if these operators are replaced by CSC::subtract and by scaling the transpose."
  },
  {
   "property": "C71",
   "status": "partial",
   "theorems": [
    "Sparse.C71_coo_conversions_partial",
    "Sparse.C71_sum_duplicates_partial",
    "Sparse.C71_mat_mat_counterexample",
    "Sparse.C71_has_sorted_counterexample",
    "Sparse.C71_same_partial",
    "Sparse.C71_compositions_partial",
    "Sparse.C71_counterexample"
   ],
   "note": "Proved: whatever a build with overflow checks returns (a matrix or Err) is returned without them; expressions whose sizes fit the index type have the right value; Coo::to_csr, Coo::to_csc and sum_duplicates are right or panic for every number of entries. The full statement is false: C71_counterexample gives wrong matrices from v_stack, upper and CSR +, C71_mat_mat_counterexample from a product and C71_has_sorted_counterexample a wrong answer of has_sorted_indexes, where the checked build panics."
  },
  {
   "property": "C72",
   "status": "proved",
   "theorems": [
    "Sparse.C72_history",
    "Sparse.C72_build"
   ],
   "note": "All histories of push and extend; equal slice lengths are a hypothesis (see C73_counterexample for unequal ones)."
  },
  {
   "property": "C73",
   "status": "partial",
   "theorems": [
    "Sparse.C73_csr_partial",
    "Sparse.C73_csc_partial",
    "Sparse.C73_coo_to_dense_partial",
    "Sparse.C73_coo_conversions_partial",
    "Sparse.C73_coo_matvec_partial",
    "Sparse.C73_counterexample"
   ],
   "note": "Proved for arbitrary invalid minor indices: mat_vec, to_dense, conversions between the formats, the operand of mat_mat whose minor indices address the other one, column scaling and coo_matvec panic. The full statement is false: C73_counterexample shows Coo::to_csr copying a bad column index, + accepting it, coo_todense writing to another position, and Coo::extend with fewer values than indices shifting later values."
  },
  {
   "property": "C74",
   "status": "partial",
   "theorems": [
    "Sparse.C74_csr_sum_duplicates_partial",
    "Sparse.C74_csc_sum_duplicates_partial",
    "Sparse.C74_csr_scale_rows",
    "Sparse.C74_csr_scale_columns",
    "Sparse.C74_counterexample",
    "Sparse.C74_csr_total",
    "Sparse.C74_csc_total"
   ],
   "note": "Proved for every crash point: the matrix stays valid with the same shape, the rows before the crash row are merged, the rows after it are untouched, and the panic occurs exactly if some position of the crash row cannot be summed; the scaling kernels are covered in full. The full statement is false for the crash row of sum_duplicates: C74_counterexample shows a value of an already merged row appearing in it a second time. Number of entries below the largest index value. C74_csr_total and C74_csc_total connect the model with panicking scalars to the one of the other properties."
  },
  {
   "property": "C75",
   "status": "proved",
   "theorems": [
    "Sparse.C75_mat_vec",
    "Sparse.C75_csr_mat_mat",
    "Sparse.C75_csc_mat_mat",
    "Sparse.C75_csr_add_sub",
    "Sparse.C75_csc_add_subtract",
    "Sparse.C75_conversions",
    "Sparse.C75_dense_diagonal",
    "Sparse.C75_csr_scale_neg",
    "Sparse.C75_mat_vec_returns_iff",
    "Sparse.C75_mat_vec_bounded",
    "Sparse.C75_kernels",
    "Sparse.C75_mul_vec_flat_dense",
    "Sparse.C75_dok",
    "Sparse.C75_div_by_zero",
    "Sparse.C75_div",
    "Sparse.C75_expressions"
   ],
   "note": "SameOrArith covers every function with scalar arithmetic, whatever the arguments; C75_mat_vec_returns_iff characterises the panics of CSR mat_vec, for the other operations the exact panic condition is not stated. Integer division is checked for zero divisors and for MIN / -1."
  },
  {
   "property": "C76",
   "status": "partial",
   "theorems": [
    "Sparse.C76_compositions_partial",
    "Sparse.C76_fitting_compositions_partial",
    "Sparse.C76_observed_partial",
    "Sparse.C76_csc_counterexample"
   ],
   "note": "Full statement false because of the CSC operators (C19, C20; counterexample C76_csc_counterexample). Proved for all other operations. C111_integers: without exceptions if these operators are replaced by CSC::subtract and by scaling the transpose."
  },
  {
   "property": "C77",
   "status": "partial",
   "theorems": [
    "Sparse.C77_signed_partial",
    "Sparse.C77_unsigned_partial",
    "Sparse.C77_representable_partial",
    "Sparse.C77_mat_vec",
    "Sparse.C77_csc_counterexample"
   ],
   "note": "Full statement false because of the CSC operators (C19, C20; counterexample C77_csc_counterexample). Proved for all other operations; mat_vec is proved in full. C111_wrapping: without exceptions if these operators are replaced by CSC::subtract and by scaling the transpose."
  },
  {
   "property": "C78",
   "status": "proved",
   "theorems": [
    "Sparse.C78_csr_mat_vec",
    "Sparse.C78_csc_mat_vec",
    "Sparse.C78_csr_mat_mat",
    "Sparse.C78_csc_mat_mat",
    "Sparse.C78_csr_add_sub",
    "Sparse.C78_csc_add_subtract",
    "Sparse.C78_duplicates",
    "Sparse.C78_to_dense",
    "Sparse.C78_csr_scale"
   ],
   "note": "The laws of floating-point arithmetic are the hypothesis FloatLaws (standard model with underflow); Chopped.laws shows a format with p+1 significant bits, rounding and overflow that satisfies it. That IEEE binary64 satisfies it is not proved."
  },
  {
   "property": "C79",
   "status": "proved",
   "theorems": [
    "Sparse.C79_csr",
    "Sparse.C79_csc",
    "Sparse.C79_coo",
    "Sparse.C79_dok",
    "Sparse.C79_kernels",
    "Sparse.C79_components",
    "Sparse.C79_expressions"
   ],
   "note": "Holds for both build profiles and without validity hypotheses. In Rust this is enforced by the types of the arrays; the theorem shows that representing values of I by unbounded integers in the model is faithful, and C70 and C76 use it to state that results are valid for I itself."
  },
  {
   "property": "C80",
   "status": "proved",
   "theorems": [
    "Sparse.C80_coo_tocsr",
    "Sparse.C80_coo_matvec",
    "Sparse.C80_csr_tocsc",
    "Sparse.C80_csr_matvec",
    "Sparse.C80_csc_matvec",
    "Sparse.C80_csr_diagonal",
    "Sparse.C80_expandptr"
   ],
   "note": "Every *T function is the model function with a counter; the first part of RunsWithin says that it has the same outcome. Constants are between 3 and 13 steps. What a step is, is in Model/Cost.lean; arithmetic, comparisons and conversions of the index type are not counted (each is bounded by a constant per counted step)."
  },
  {
   "property": "C81",
   "status": "partial",
   "theorems": [
    "Sparse.C81_product_time_partial",
    "Sparse.C81_documented_bound_false"
   ],
   "note": "Proved with K the maximum number of entries in a row of A and a row of B. With a row of A and a column of B, as the documentation has it, the bound is false: C81_documented_bound_false gives, for every constant, a column times a row (K = 1) that takes more steps."
  },
  {
   "property": "C82",
   "status": "partial",
   "theorems": [
    "Sparse.C82_strong_components_time_partial"
   ],
   "note": "As C35: graphs with at least one node and without duplicate entries off the diagonal, on others the code panics or returns wrong labels. 50 steps per node and entry."
  },
  {
   "property": "C83",
   "status": "proved",
   "theorems": [
    "Sparse.C83_new",
    "Sparse.C83_with_size",
    "Sparse.C83_product",
    "Sparse.C83_stack",
    "Sparse.C83_compose",
    "Sparse.C83_upper",
    "Sparse.C83_from_dense",
    "Sparse.C83_to_csr",
    "Sparse.C83_diagonal",
    "Sparse.C83_row_slice",
    "Sparse.C83_todense",
    "Sparse.C83_matvecs",
    "Sparse.C83_strong_components",
    "Sparse.C83_csc_new",
    "Sparse.C83_transpose",
    "Sparse.C83_csc_product",
    "Sparse.C83_to_csc",
    "Sparse.C83_convert",
    "Sparse.C83_stack3",
    "Sparse.C83_compose3",
    "Sparse.C83_csr_h_stack",
    "Sparse.C83_csc_compose"
   ],
   "note": "The functions of Model/Usize.lean and Model/UsizeCsc.lean repeat those functions of the model whose usize arithmetic can leave the word, with an arithmetic of a given width; every other function computes only positions in and lengths of existing arrays. Memory for the work vectors of the product (one element per column) is assumed to be available. The condition of csr_row_slice is stop + step <= usize::MAX + 1, that of csr_diagonal an offset inside the matrix; strong components as C35."
  },
  {
   "property": "C84",
   "status": "partial",
   "theorems": [
    "Sparse.C84_checked",
    "Sparse.C84_checked_values",
    "Sparse.C84_release_partial",
    "Sparse.C84_product_positions",
    "Sparse.C84_count_diagonals",
    "Sparse.C84_empty_graph",
    "Sparse.C84_stack_counterexample",
    "Sparse.C84_stack_wraps",
    "Sparse.C84_with_size_counterexample",
    "Sparse.C84_row_slice_counterexample",
    "Sparse.C84_todense_counterexample",
    "Sparse.C84_diagonal_counterexample",
    "Sparse.C84_checked_blocks",
    "Sparse.C84_columns",
    "Sparse.C84_csr_h_stack_counterexample"
   ],
   "note": "Proved in full for builds with overflow checks. Without them it is proved for CSR::new, CSC::new, mat_mat and the transposes of both formats, to_csr, to_csc, from_dense and upper; csr_count_diagonals and the strong components of the empty graph are even right where the other profile panics. It is false for stacking, CSR::with_size(usize::MAX, _), csr_row_slice with a large step, coo_todense on an array that is too short and csr_diagonal with an offset outside the matrix: see the counterexamples. C84_stack_wraps gives the wrong number of rows in general."
  },
  {
   "property": "C85",
   "status": "partial",
   "theorems": [
    "Sparse.C85_weak_components_time",
    "Sparse.C85_depth_first_time_partial",
    "Sparse.C85_depth_first_not_linear",
    "Sparse.C85_csr_components_time_partial",
    "Sparse.C85_csr_components_not_linear"
   ],
   "note": "Proved for weak components (26 steps per node and array element). Depth-first order and CSR::connected_components are not linear: C85_depth_first_not_linear and C85_csr_components_not_linear give, for every constant, a graph on which they take longer. Proved instead: depth-first order is O(V*(K+1) + E) where no node has more than K edges, and CSR::connected_components is between k*(k-1) and O(V*(k+1) + E) where k is the number of components."
  },
  {
   "property": "C86",
   "status": "proved",
   "theorems": [
    "Sparse.C86_programs",
    "Sparse.C86_observers",
    "Sparse.C86_rings",
    "Sparse.C86_conj",
    "Sparse.C86_real"
   ],
   "note": "Exact equality of outcomes, law-free: C86_programs for arbitrary scalar operations, C86_rings for injective ring homomorphisms, C86_conj and C86_real for complex scalars over a commutative ring. Programs are the expressions of SpecExpr. That the test != 0 has to be preserved is shown by an example."
  },
  {
   "property": "C87",
   "status": "proved",
   "theorems": [
    "Sparse.C87_programs",
    "Sparse.C87_graph"
   ],
   "note": "C87_programs for the expressions of SpecExpr without from_dense, element-wise CSR/CSC operators and products (these drop zeros and so look at values); C87_graph for the three searches."
  },
  {
   "property": "C88",
   "status": "proved",
   "theorems": [
    "Sparse.C88_csr_scale_rows",
    "Sparse.C88_csr_scale_columns",
    "Sparse.C88_csr_todense",
    "Sparse.C88_coo_todense",
    "Sparse.C88_csr_tocoo",
    "Sparse.C88_csr_has_sorted_indices",
    "Sparse.C88_csr_has_canonical_format",
    "Sparse.C88_csr_sum_duplicates",
    "Sparse.C88_csr_eliminate_zeros",
    "Sparse.C88_csr_matvecs",
    "Sparse.C88_csc_matvecs"
   ],
   "note": "As C80. The format tests assume that the number of stored columns is representable in the index type, as it is in every valid matrix. Sorting the rows (csr_sort_indices) calls the sort of the standard library and is not included."
  },
  {
   "property": "C89",
   "status": "proved",
   "theorems": [
    "Sparse.C89_csr_binop_csr_canonical",
    "Sparse.C89_csr_binop_csr_general",
    "Sparse.C89_csr_binop_csr"
   ],
   "note": "As C80; with the tests of the form of the operands: 21 steps per row, column and entry. Lengths of the column arrays representable in the index type for csr_binop_csr."
  },
  {
   "property": "C90",
   "status": "proved",
   "theorems": [
    "Sparse.C90_csr_row_index",
    "Sparse.C90_csr_select",
    "Sparse.C90_get_csr_submatrix",
    "Sparse.C90_csr_column_index1",
    "Sparse.C90_csr_column_index2"
   ],
   "note": "As C80. Hash insertions and look-ups are counted as one step, the cost the standard library promises on average."
  },
  {
   "property": "C91",
   "status": "proved",
   "theorems": [
    "Sparse.C91_csr_history",
    "Sparse.C91_csc_history",
    "Sparse.C91_csr_no_writes",
    "Sparse.C91_csc_no_writes"
   ],
   "note": "The number of stored entries is less than the largest value of the index type (as for C54). CSR::prune is not public; it is allowed in histories all the same."
  },
  {
   "property": "C92",
   "status": "proved",
   "theorems": [
    "Sparse.C92_coo_stack",
    "Sparse.C92_coo_compose",
    "Sparse.C92_coo_upper_diagonal",
    "Sparse.C92_with_diagonal",
    "Sparse.C92_coo_from_dense",
    "Sparse.C92_from_dense",
    "Sparse.C92_csr_h_stack",
    "Sparse.C92_csc_compose",
    "Sparse.C92_csr_mat_vec",
    "Sparse.C92_csr_has_canonical_format",
    "Sparse.C92_csr_has_sorted_indexes",
    "Sparse.C92_csr_sort_indexes",
    "Sparse.C92_csr_sum_duplicates",
    "Sparse.C92_csr_to_csc",
    "Sparse.C92_csr_to_dense",
    "Sparse.C92_csr_get",
    "Sparse.C92_csr_neg",
    "Sparse.C92_csr_mul_scalar",
    "Sparse.C92_csr_to_coo",
    "Sparse.C92_csr_diagonal",
    "Sparse.C92_csr_transpose",
    "Sparse.C92_csr_mat_mat",
    "Sparse.C92_csr_select",
    "Sparse.C92_csr_add",
    "Sparse.C92_csr_sub",
    "Sparse.C92_csc_mat_vec",
    "Sparse.C92_csc_has_canonical_format",
    "Sparse.C92_csc_has_sorted_indexes",
    "Sparse.C92_csc_sort_indexes",
    "Sparse.C92_csc_sum_duplicates",
    "Sparse.C92_csc_to_csr",
    "Sparse.C92_csc_to_dense",
    "Sparse.C92_csc_to_coo",
    "Sparse.C92_csc_diagonal",
    "Sparse.C92_csc_transpose",
    "Sparse.C92_csc_mat_mat",
    "Sparse.C92_csc_select",
    "Sparse.C92_csc_add",
    "Sparse.C92_coo_to_csr",
    "Sparse.C92_coo_to_csc",
    "Sparse.C92_coo_add",
    "Sparse.C92_coo_to_dense",
    "Sparse.C92_coo_transpose"
   ],
   "note": "The cost of the stable sort of the standard library is taken from its documentation: k*(log2 k + 1) steps. The format tests, sum_duplicates, select and the operators need the number of stored entries to be representable in the index type; CSC::to_dense and the coordinate conversions are stated for valid matrices and the debug build."
  },
  {
   "property": "C93",
   "status": "proved",
   "theorems": [
    "Sparse.C93_mul_assoc",
    "Sparse.C93_mul_add",
    "Sparse.C93_add_mul",
    "Sparse.C93_mul_sub",
    "Sparse.C93_sub_mul",
    "Sparse.C93_add_comm_assoc",
    "Sparse.C93_cancel",
    "Sparse.C93_neutral",
    "Sparse.C93_csc_mul_assoc",
    "Sparse.C93_csc_distrib",
    "Sparse.C93_csc_add_comm_assoc",
    "Sparse.C93_scale_mul",
    "Sparse.C93_transpose_mul",
    "Sparse.C93_transpose_add",
    "Sparse.C93_vectors",
    "Sparse.C93_programs",
    "Sparse.C93_csc_programs",
    "Sparse.C93_mixed_programs"
   ],
   "note": "The programs of C93_programs, C93_csc_programs and C93_mixed_programs do not use the operator - on CSC matrices and scalar multiples of CSC matrices, which are broken (C19, C20)."
  },
  {
   "property": "C94",
   "status": "proved",
   "theorems": [
    "Sparse.C94_search_unique",
    "Sparse.C94_depth_first_order"
   ],
   "note": "The recursive search is the inductive relation Search of SpecSearch.lean; C94_search_unique shows that it has at most one outcome."
  },
  {
   "property": "C95",
   "status": "proved",
   "theorems": [
    "Sparse.C95_coo",
    "Sparse.C95_csr",
    "Sparse.C95_csc",
    "Sparse.C95_dok",
    "Sparse.C95_injective"
   ],
   "note": "Reading back is a specification-level parser (readText); that Display of the scalar type can be parsed back is a hypothesis (Legible), shown for the integers. CSR and CSC rebuild theorems assume no unused storage and that the counts fit the index type."
  },
  {
   "property": "C96",
   "status": "proved",
   "theorems": [
    "Sparse.C96_csr_mat_vec",
    "Sparse.C96_csc_mat_vec",
    "Sparse.C96_csr_mat_mat",
    "Sparse.C96_csc_mat_mat",
    "Sparse.C96_csr_add_sub",
    "Sparse.C96_csc_add_subtract"
   ],
   "note": "Assumes the standard model of rounding (FloatLaws, as in C78), of which a concrete instance is proved (numbers chopped to p bits). Nothing is claimed of elements that overflow to infinity or NaN. Merging duplicates needs no separate theorem: the bound of C78_duplicates is already a backward bound."
  },
  {
   "property": "C97",
   "status": "proved",
   "theorems": [
    "Sparse.C97_csr_add",
    "Sparse.C97_csr_sub",
    "Sparse.C97_csc_add",
    "Sparse.C97_csc_subtract",
    "Sparse.C97_csc_add_op",
    "Sparse.C97_csr_mat_mat",
    "Sparse.C97_csc_mat_mat",
    "Sparse.C97_full_operand"
   ],
   "note": "exact border: success iff the non-zeros of the result can be counted; C97_full_operand shows that the condition on the operands is needed"
  },
  {
   "property": "C98",
   "status": "proved",
   "theorems": [
    "Sparse.C98_select_mul",
    "Sparse.C98_stack_mul",
    "Sparse.C98_stack_vec",
    "Sparse.C98_transpose_stack",
    "Sparse.C98_unstack",
    "Sparse.C98_compose_mul",
    "Sparse.C98_select_add",
    "Sparse.C98_select_select",
    "Sparse.C98_diagonal",
    "Sparse.C98_csc_select_mul",
    "Sparse.C98_csc_select_add",
    "Sparse.C98_csc_select_select",
    "Sparse.C98_csc_diagonal"
   ],
   "note": "twelve laws between different routes; results are compared array by array or, where orders may differ, after sum_duplicates"
  },
  {
   "property": "C99",
   "status": "proved",
   "theorems": [
    "Sparse.C99_h_mul_add",
    "Sparse.C99_adjoint",
    "Sparse.C99_gram",
    "Sparse.C99_parts"
   ],
   "note": "exact arithmetic over a commutative ring; products of complex numbers as num_complex computes them"
  },
  {
   "property": "C100",
   "status": "proved",
   "theorems": [
    "Sparse.C100_weak_determined",
    "Sparse.C100_search_weak",
    "Sparse.C100_search_strong",
    "Sparse.C100_strong_weak",
    "Sparse.C100_method_weak",
    "Sparse.C100_reversed"
   ],
   "note": "strong components and the method under the conditions of C35 and C36, outside which they do not return components"
  },
  {
   "property": "C101",
   "status": "proved",
   "theorems": [
    "Sparse.C101_csc_trace",
    "Sparse.C101_csc_diagonal_mul",
    "Sparse.C101_scaling",
    "Sparse.C101_diagonal_roundtrip",
    "Sparse.C101_diagonal_mul",
    "Sparse.C101_trace",
    "Sparse.C101_upper_upper",
    "Sparse.C101_split",
    "Sparse.C101_select_product"
   ],
   "note": ""
  },
  {
   "property": "C102",
   "status": "proved",
   "theorems": [
    "Sparse.C102_csc_power",
    "Sparse.C102_csc_apply",
    "Sparse.C102_power",
    "Sparse.C102_order",
    "Sparse.C102_apply",
    "Sparse.C102_walks",
    "Sparse.C102_support",
    "Sparse.C102_search",
    "Sparse.C102_strong"
   ],
   "note": "strong components under the conditions of C35"
  },
  {
   "property": "C103",
   "status": "proved",
   "theorems": [
    "Sparse.C103_elementwise",
    "Sparse.C103_identities",
    "Sparse.C103_laws",
    "Sparse.C103_comparisons",
    "Sparse.C103_division"
   ],
   "note": ""
  },
  {
   "property": "C104",
   "status": "proved",
   "theorems": [
    "Sparse.C104_relabel",
    "Sparse.C104_component",
    "Sparse.C104_block_triangular",
    "Sparse.C104_acyclic",
    "Sparse.C104_block_diagonal"
   ],
   "note": ""
  },
  {
   "property": "C105",
   "status": "proved",
   "theorems": [
    "Sparse.C105_csc_read",
    "Sparse.C105_read",
    "Sparse.C105_row_slice",
    "Sparse.C105_submatrix",
    "Sparse.C105_columns",
    "Sparse.C105_matvecs"
   ],
   "note": ""
  },
  {
   "property": "C106",
   "status": "proved",
   "theorems": [
    "Sparse.C106_laplacian",
    "Sparse.C106_nullity"
   ],
   "note": ""
  },
  {
   "property": "C107",
   "status": "proved",
   "theorems": [
    "Sparse.C107_content",
    "Sparse.C107_assembly",
    "Sparse.C107_order",
    "Sparse.C107_undo",
    "Sparse.C107_from_dense"
   ],
   "note": ""
  },
  {
   "property": "C108",
   "status": "proved",
   "theorems": [
    "Sparse.C108_programs",
    "Sparse.C108_observations",
    "Sparse.C108_adjoint"
   ],
   "note": "the operator - and scalar multiplication are left out: on CSC they return wrong results (C19, C20)"
  },
  {
   "property": "C109",
   "status": "proved",
   "theorems": [
    "Sparse.C109_csc_product",
    "Sparse.C109_csc_step",
    "Sparse.C109_csc_chain",
    "Sparse.C109_monotone",
    "Sparse.C109_product",
    "Sparse.C109_step",
    "Sparse.C109_average",
    "Sparse.C109_mixture",
    "Sparse.C109_power",
    "Sparse.C109_reached"
   ],
   "note": "exact arithmetic; products whose number of positions fits the index type"
  },
  {
   "property": "C110",
   "status": "proved",
   "theorems": [
    "Sparse.C110_bound",
    "Sparse.C110_relative",
    "Sparse.C110_apply",
    "Sparse.C110_csc_bound",
    "Sparse.C110_csc_relative"
   ],
   "note": "no intermediate result overflows; given matrices without duplicate positions (C78 bounds the error of merging duplicates)"
  },
  {
   "property": "C111",
   "status": "proved",
   "theorems": [
    "Sparse.C111_programs",
    "Sparse.C111_overflow",
    "Sparse.C111_integers",
    "Sparse.C111_wrapping",
    "Sparse.C111_csc_difference",
    "Sparse.C111_csc_scalar",
    "Sparse.C111_to_coo",
    "Sparse.C111_h_stack",
    "Sparse.C111_checked_sum",
    "Sparse.C111_get",
    "Sparse.C111_components"
   ],
   "note": "the direct calls: C05, C16, C19, C20, C26, C35, C45"
  },
  {
   "property": "C112",
   "status": "proved",
   "theorems": [
    "Sparse.C112_fill_in",
    "Sparse.C112_band",
    "Sparse.C112_csr_size",
    "Sparse.C112_csc_size",
    "Sparse.C112_power",
    "Sparse.C112_triangular"
   ],
   "note": "C112_fill_in: stored positions of the result of any program lie among its structural positions; C112_band: the rules of bands; C112_csr_size, C112_csc_size: number of entries of banded results; C112_power: powers; C112_triangular: products of triangular matrices. Stacked, composed and selected operands have to lie in the band as they are."
  },
  {
   "property": "C113",
   "status": "proved",
   "theorems": [
    "Sparse.C113_csr_gram",
    "Sparse.C113_csr_sum",
    "Sparse.C113_csr_difference",
    "Sparse.C113_csc_gram",
    "Sparse.C113_csc_sum",
    "Sparse.C113_unsorted_not_symmetric"
   ],
   "note": "C113_csr_gram, C113_csc_gram: products with the transpose; C113_csr_sum, C113_csc_sum: sums with the transpose; C113_csr_difference: A - A\u1d40 is antisymmetric; C113_unsorted_not_symmetric: the canonical format is needed for the products."
  },
  {
   "property": "C114",
   "status": "proved",
   "theorems": [
    "Sparse.C114_csr_mat_vec",
    "Sparse.C114_csc_mat_vec",
    "Sparse.C114_coo_mat_vec",
    "Sparse.C114_mat_mat",
    "Sparse.C114_add_sub",
    "Sparse.C114_sorted_factor",
    "Sparse.C114_unsorted_differs",
    "Sparse.C114_programs"
   ],
   "note": "C114_csr_mat_vec, C114_csc_mat_vec, C114_coo_mat_vec: products with a vector; C114_mat_mat: products; C114_add_sub: sums and differences; C114_sorted_factor: sorting the second factor of a CSR product changes nothing; C114_unsorted_differs: the sorted rows are needed."
  }
 ]
}