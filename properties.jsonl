{"id": "C01", "title": "Coo::to_csr preserves the matrix and is canonical", "statement": "For a Coo matrix whose indices are all in range and whose number of entries is smaller than the largest value of the index type, to_csr() never panics and returns a CSR of the same shape denoting the same matrix (entry (i,j) is the sum of all values pushed at (i,j)), in canonical format (column indexes strictly increasing in each row), with rowptr/colidx/values of exactly the advertised lengths, whose stored positions are exactly the positions present in the Coo input (explicit zeros kept, nothing invented). With more entries than the largest index value it always panics; with exactly as many it panics if the entries are in strictly increasing order of (row, column) and the last row is empty, and converts as described otherwise.", "quantifier": "every Coo matrix with in-range indices, any order, any duplicates, any index type wide enough", "why_tests_cant": "counting sort + in-place duplicate summation must be right for every order and multiplicity of triplets; tests sample a handful", "anchors": ["src/coo/coo.rs:Coo::to_csr", "src/coord.rs:coo_tocsr", "src/csr/csr.rs:CSR::sum_duplicates", "src/row.rs:csr_sum_duplicates"]}
{"id": "C02", "title": "Coo::to_csc preserves the matrix and is canonical", "statement": "Same as C01 for to_csc(): no panic, same shape, same matrix, row indexes strictly increasing in each column, exact lengths, stored positions exactly those of the input; with at least as many entries as the largest index value it panics in exactly the cases that correspond to those of C01.", "quantifier": "every Coo matrix with in-range indices, any order, any duplicates whose number of entries is smaller than the largest value of the index type", "why_tests_cant": "same as C01", "anchors": ["src/coo/coo.rs:Coo::to_csc", "src/coord.rs:coo_tocsr", "src/csc/csc.rs:CSC::sum_duplicates"]}
{"id": "C03", "title": "CSR::to_csc preserves the matrix, every stored entry and sorts row indexes", "statement": "For every structurally valid CSR matrix to_csc() does not panic and returns a structurally valid CSC of the same shape with the same matrix, exactly the same multiset of stored (row, col, value) triplets (hence the same nnz), and row indexes in non-decreasing order in every column.", "quantifier": "every matrix shape, every stored pattern (sorted or not, with or without duplicates) and every value assignment of CSR whose row numbers the index type can represent (rows <= I::MAX + 1)", "why_tests_cant": "an in-place counting sort whose pointer array is temporarily shifted; off-by-one errors show only for particular empty-row/column patterns", "anchors": ["src/csr/csr.rs:CSR::to_csc", "src/row.rs:csr_tocsc"]}
{"id": "C04", "title": "CSC::to_csr preserves the matrix and CSR->CSC->CSR is the identity on canonical matrices", "statement": "For every structurally valid CSC matrix to_csr() does not panic, keeps shape, matrix and multiset of stored triplets, with sorted columns in every row; and converting a CSR with sorted rows to CSC and back returns exactly the same rowptr, colidx and values.", "quantifier": "every matrix shape, every stored pattern (sorted or not, with or without duplicates) and every value assignment whose row and column numbers the index type can represent", "why_tests_cant": "round trip must hold for every pattern", "anchors": ["src/csc/csc.rs:CSC::to_csr", "src/csr/csr.rs:CSR::to_csc", "src/col.rs:csc_tocsr", "src/row.rs:csr_tocsc"]}
{"id": "C05", "title": "to_coo lists exactly the stored entries", "statement": "CSR::to_coo() and CSC::to_coo() return a Coo of the same shape whose triplets are exactly the stored entries of the matrix, in storage order, so that nnz and the denoted matrix are unchanged. (CSR::new accepts index/value arrays longer than nnz; the claim covers those too.)", "quantifier": "every CSR/CSC matrix accepted by the constructor with valid structure", "why_tests_cant": "holds or fails depending on array slack that tests never build", "anchors": ["src/csr/csr.rs:CSR::to_coo", "src/csc/csc.rs:CSC::to_coo", "src/row.rs:expandptr", "src/row.rs:csr_tocoo"]}
{"id": "C06", "title": "to_dense is the denoted matrix", "statement": "Coo::to_dense, CSC::to_dense (and the crate-internal CSR::to_dense, and the kernel csr_todense which accumulates into its argument) return rows vectors of cols elements whose (i,j) element is the sum of the values stored at (i,j), zero where nothing is stored; no panic for valid matrices.", "quantifier": "every matrix shape, every stored pattern (sorted or not, with or without duplicates) and every value assignment", "why_tests_cant": "must hold for all shapes including 0xN and Nx0 and all duplicate patterns", "anchors": ["src/coo/coo.rs:Coo::to_dense", "src/csc/csc.rs:CSC::to_dense", "src/csr/csr.rs:CSR::to_dense", "src/row.rs:csr_todense", "src/coord.rs:coo_todense"]}
{"id": "C07", "title": "sum_duplicates canonicalises in place without changing the matrix", "statement": "After CSR/CSC sum_duplicates() on any valid matrix: no panic/Err, the denoted matrix and shape are unchanged, the format is canonical, arrays are trimmed to nnz when anything was summed, the set of stored positions is unchanged, and applying it again changes nothing. With as many stored entries as the largest index value it panics if and only if the matrix is in canonical format already and one of its rows (columns) starts after all entries, and does what is described otherwise; a second call can then panic.", "quantifier": "every matrix shape, every stored pattern (sorted or not, with or without duplicates) and every value assignment with fewer stored entries than the largest value of the index type", "why_tests_cant": "in-place compaction reads and writes the same arrays; correctness depends on write index never passing read index", "anchors": ["src/csr/csr.rs:CSR::sum_duplicates", "src/csc/csc.rs:CSC::sum_duplicates", "src/row.rs:csr_sum_duplicates"]}
{"id": "C08", "title": "sort_indexes is a stable per-row sort of entries", "statement": "sort_indexes() leaves rowptr unchanged and replaces each row by the stable sort of its (column, value) pairs by column, so each row is a permutation of itself, is sorted, and equal columns keep their relative order.", "quantifier": "every matrix shape, every stored pattern (sorted or not, with or without duplicates) and every value assignment", "why_tests_cant": "permutation and stability for all rows", "anchors": ["src/row.rs:csr_sort_indices", "src/csr/csr.rs:CSR::sort_indexes", "src/csc/csc.rs:CSC::sort_indexes"]}
{"id": "C09", "title": "has_canonical_format decides strict sortedness", "statement": "has_canonical_format() returns true iff the column indexes of every row are strictly increasing (sorted and duplicate-free), and returns without panic on every valid matrix (of any supported index type).", "quantifier": "every matrix shape, every stored pattern (sorted or not, with or without duplicates) and every value assignment", "why_tests_cant": "iff over all patterns", "anchors": ["src/row.rs:csr_has_canonical_format", "src/csr/csr.rs:CSR::has_canonical_format", "src/csc/csc.rs:CSC::has_canonical_format"]}
{"id": "C10", "title": "has_sorted_indexes decides sortedness", "statement": "has_sorted_indexes() returns true iff every row's column indexes are non-decreasing, for every valid matrix, without panicking.", "quantifier": "every matrix shape, every stored pattern (sorted or not, with or without duplicates) and every value assignment", "why_tests_cant": "iff over all patterns, including leading empty rows", "anchors": ["src/row.rs:csr_has_sorted_indices", "src/csr/csr.rs:CSR::has_sorted_indexes", "src/csc/csc.rs:CSC::has_sorted_indexes"]}
{"id": "C11", "title": "CSR mat_vec is the matrix-vector product", "statement": "mat_vec(x) returns Err iff len(x) != cols; otherwise it returns the vector of length rows with y[i] = sum_j A[i,j] x[j]; csr_matvec accumulates that product into y. No panic for valid matrices.", "quantifier": "every matrix shape, every stored pattern (sorted or not, with or without duplicates) and every value assignment and every x", "why_tests_cant": "linear algebra identity over all inputs", "anchors": ["src/csr/csr.rs:CSR::mat_vec", "src/row.rs:csr_matvec", "src/csr/std_ops.rs:mul"]}
{"id": "C12", "title": "CSC and COO mat_vec are the matrix-vector product", "statement": "CSC::mat_vec(x) returns Err iff len(x) != cols and otherwise y[i] = sum_j A[i,j] x[j]; coo_matvec and csc_matvec accumulate A x into y.", "quantifier": "every matrix shape, every stored pattern (sorted or not, with or without duplicates) and every value assignment and every x", "why_tests_cant": "linear algebra identity over all inputs", "anchors": ["src/csc/csc.rs:CSC::mat_vec", "src/col.rs:csc_matvec", "src/coord.rs:coo_matvec"]}
{"id": "C13", "title": "CSR mat_mat is the matrix product", "statement": "mat_mat returns Err iff A.cols != B.rows; otherwise it never panics (in particular the preallocated arrays are always big enough) and returns a valid CSR of shape A.rows x B.cols denoting the matrix product, with no explicitly stored zero and no duplicate column in a row.", "quantifier": "every pair of valid CSR matrices, sorted or not, with duplicates or not such that the number of product positions with a stored contribution is representable in the index type", "why_tests_cant": "linked-list accumulator reused across rows; size bound from a separate symbolic pass", "anchors": ["src/csr/csr.rs:CSR::mat_mat", "src/row.rs:csr_matmat", "src/row.rs:csr_matmat_maxnnz"]}
{"id": "C14", "title": "CSC mat_mat is the matrix product", "statement": "CSC::mat_mat returns Err iff dimensions mismatch; otherwise a valid CSC of shape A.rows x B.cols denoting A*B with no stored zero and no duplicate row in a column; CSC * CSR likewise multiplies.", "quantifier": "every pair of valid CSC matrices such that the number of product positions with a stored contribution is representable in the index type, over scalars with commutative multiplication", "why_tests_cant": "relies on (AB)^T = B^T A^T with swapped arguments", "anchors": ["src/csc/csc.rs:CSC::mat_mat", "src/col.rs:csc_matmat", "src/col.rs:csc_matmat_maxnnz", "src/csc/std_ops.rs:mul"]}
{"id": "C15", "title": "CSR + and - are matrix addition and subtraction", "statement": "For valid CSR matrices of equal shape, A + B and A - B never panic and denote the entrywise sum and difference, with no stored zeros and no duplicate columns; the result is canonical when both operands are.", "quantifier": "every pair of equal-shape valid CSR matrices, canonical or not with fewer stored entries together than the largest value of the index type", "why_tests_cant": "two code paths (merge / linked list) selected at run time must agree with the algebra", "anchors": ["src/csr/std_ops.rs:add", "src/csr/std_ops.rs:sub", "src/row.rs:csr_binop_csr_canonical", "src/row.rs:csr_binop_csr_general"]}
{"id": "C16", "title": "CSR + and - reject operands of different shape", "statement": "A + B and A - B on CSR matrices whose shapes differ do not silently return a result.", "quantifier": "every pair of valid CSR matrices of different shapes", "why_tests_cant": "quantifies over all shape mismatches", "anchors": ["src/csr/std_ops.rs:add", "src/csr/std_ops.rs:sub"]}
{"id": "C17", "title": "Element-wise binary operations", "statement": "For any scalar operation op, csr_binop_csr (and the derived mul, div, max, min, ne, eq, lt, le, gt, ge kernels) produces, at every position stored in A or B, op(A[i,j],B[i,j]) (dropped if it is the zero/false value) and stores nothing elsewhere; both code paths agree; output has no duplicates; so it equals the dense operation at every position exactly when op(0,0) is zero/false, and eq/le/ge report false at positions stored in neither operand.", "quantifier": "every op, every pair of valid equal-shape matrices with fewer stored entries together than the largest value of the index type", "why_tests_cant": "quantifies over all operations and patterns", "anchors": ["src/row.rs:csr_binop_csr", "src/row.rs:csr_eq_csr", "src/row.rs:csr_mul_csr", "src/row.rs:csr_max_csr"]}
{"id": "C18", "title": "CSC::add and CSC::subtract", "statement": "Return Err iff shapes differ; otherwise the result is valid, denotes A+B / A-B, has no stored zeros or duplicates, has arrays trimmed to nnz, and is canonical when both are.", "quantifier": "every pair of valid CSC matrices with fewer stored entries together than the largest value of the index type", "why_tests_cant": "same as C15", "anchors": ["src/csc/csc.rs:CSC::add", "src/csc/csc.rs:CSC::subtract", "src/csc/std_ops.rs:add"]}
{"id": "C19", "title": "CSC - operator is matrix subtraction", "statement": "For valid CSC matrices of equal shape, the - operator returns a CSC denoting A - B.", "quantifier": "every pair of valid equal-shape CSC matrices", "why_tests_cant": "no test exercises the operator; claim is over all matrices", "anchors": ["src/csc/std_ops.rs:sub"]}
{"id": "C20", "title": "Scalar multiplication", "statement": "CSR * scalar, CSC * scalar and scalar * matrix return a matrix of the same shape and pattern with every entry multiplied by the scalar.", "quantifier": "every valid matrix and scalar", "why_tests_cant": "claim is over all matrices", "anchors": ["src/csr/std_ops.rs:mul", "src/csc/std_ops.rs:mul"]}
{"id": "C21", "title": "Negation", "statement": "-A on Coo, CSR and CSC keeps shape and pattern and negates every entry; -(-A) has the same stored data as A.", "quantifier": "every valid matrix", "why_tests_cant": "claim is over all matrices", "anchors": ["src/csr/std_ops.rs:neg", "src/csc/std_ops.rs:neg", "src/coo/std_ops.rs:neg"]}
{"id": "C22", "title": "select extracts rows and columns", "statement": "select(rows, cols) on a canonical CSR or CSC returns Err iff the matrix is not canonical or a requested index is out of range; otherwise the result has one row per requested row and one column per requested column, with entry (r,c) equal to A[rows[r], cols[c]] (repetitions and any order allowed; None means all), and nnz equal to the number of stored selected positions.", "quantifier": "every canonical matrix and every list of indexes (unsorted, repeated, empty); the dimensions, the number of requested columns and the number of picked entries representable in the index type (a dimension that is not makes the call panic), and no row starting at position I::MAX (C09)", "why_tests_cant": "arbitrary index lists", "anchors": ["src/csr/csr.rs:CSR::select", "src/csc/csc.rs:CSC::select", "src/row.rs:csr_select"]}
{"id": "C23", "title": "get_csr_submatrix extracts a contiguous block", "statement": "For 0<=ir0<=ir1<=rows and 0<=ic0<=ic1<=cols, get_csr_submatrix yields the valid CSR of the block with entry (i,j) = A[ir0+i, ic0+j], keeping every stored entry of the block in order.", "quantifier": "every matrix shape, every stored pattern (sorted or not, with or without duplicates) and every value assignment and all bounds representable in the index type", "why_tests_cant": "all blocks", "anchors": ["src/row.rs:get_csr_submatrix"]}
{"id": "C24", "title": "diagonal extraction", "statement": "diagonal() on Coo, CSR and CSC returns min(rows,cols) elements equal to A[i,i] (duplicates summed); csr_diagonal/csc_diagonal with offset k return A[i+max(0,-k), i+max(0,k)].", "quantifier": "every matrix shape, every stored pattern (sorted or not, with or without duplicates) and every value assignment and every k in range", "why_tests_cant": "all k and shapes", "anchors": ["src/row.rs:csr_diagonal", "src/col.rs:csc_diagonal", "src/coo/coo.rs:Coo::diagonal", "src/csr/csr.rs:CSR::diagonal", "src/csc/csc.rs:CSC::diagonal"]}
{"id": "C25", "title": "transpose", "statement": "transpose()/t() of Coo, CSR, CSC swap the shape and denote the transposed matrix; applying it twice gives back exactly the original data; never panics on valid input.", "quantifier": "every matrix shape, every stored pattern (sorted or not, with or without duplicates) and every value assignment", "why_tests_cant": "all matrices", "anchors": ["src/coo/coo.rs:Coo::transpose", "src/csr/csr.rs:CSR::transpose", "src/csc/csc.rs:CSC::transpose"]}
{"id": "C26", "title": "h_stack / v_stack", "statement": "Coo::h_stack(A,B) (v_stack, h_stack3, v_stack3, CSR::h_stack) returns Err iff the shared dimension differs; otherwise the result is the block matrix [A B] ([A;B], ...), with nnz the sum of the operands'.", "quantifier": "every tuple of valid matrices whose shifted indexes are representable", "why_tests_cant": "all shapes", "anchors": ["src/coo/coo.rs:Coo::h_stack", "src/coo/coo.rs:Coo::v_stack", "src/coo/coo.rs:Coo::h_stack3", "src/coo/coo.rs:Coo::v_stack3", "src/csr/csr.rs:CSR::h_stack"]}
{"id": "C27", "title": "compose / compose3 assemble block matrices", "statement": "Coo::compose, Coo::compose3 and CSC::compose return Err when block dimensions do not match and otherwise the block matrix whose (I,J) block is the given argument.", "quantifier": "every choice of blocks", "why_tests_cant": "all shapes", "anchors": ["src/coo/coo.rs:Coo::compose", "src/coo/coo.rs:Coo::compose3", "src/csc/csc.rs:CSC::compose"]}
{"id": "C28", "title": "upper triangle", "statement": "Coo::upper(k) keeps exactly the stored entries with row + k <= col, in order, so entry (i,j) of the result is A[i,j] if i + k <= j and 0 otherwise.", "quantifier": "every matrix shape, every stored pattern (sorted or not, with or without duplicates) and every value assignment and every k not overflowing", "why_tests_cant": "all k", "anchors": ["src/coo/coo.rs:Coo::upper"]}
{"id": "C29", "title": "csr_eliminate_zeros", "statement": "Removes exactly the stored entries whose value is zero, keeping the order of the others; the matrix is unchanged and no stored value in the first nnz is zero.", "quantifier": "every matrix shape, every stored pattern (sorted or not, with or without duplicates) and every value assignment", "why_tests_cant": "in-place compaction", "anchors": ["src/row.rs:csr_eliminate_zeros"]}
{"id": "C30", "title": "DoK behaves as a total function with zero default", "statement": "After any sequence of set/add/sub calls, get(i,j) returns the value a plain two-dimensional array of zeros would hold after the same accepted updates; out-of-range updates return Err and change nothing.", "quantifier": "every finite sequence of set/add/sub operations on a matrix whose dimensions are representable in the index type (otherwise the calls panic)", "why_tests_cant": "all histories", "anchors": ["src/dok/dok.rs:DoK::set", "src/dok/dok.rs:DoK::add", "src/dok/dok.rs:DoK::sub", "src/dok/dok.rs:DoK::get"]}
{"id": "C31", "title": "DoK never stores zeros or out-of-range keys", "statement": "After any sequence of operations (including from_dense) no stored value is zero, all keys are in range, and nnz() is the number of non-zero entries of the matrix.", "quantifier": "every finite sequence of operations", "why_tests_cant": "all histories", "anchors": ["src/dok/dok.rs:DoK::set", "src/dok/dok.rs:DoK::nnz", "src/dok/dok.rs:DoK::from_dense"]}
{"id": "C32", "title": "DoK conversions do not depend on HashMap iteration order", "statement": "to_csr(), to_csc() and to_dense() give the same result (identical arrays) whatever order the hash map enumerates its entries in, and denote the matrix get() describes.", "quantifier": "every reachable DoK and every enumeration order of its entries; fewer entries than the largest value of the index type", "why_tests_cant": "iteration order of HashMap is randomised; tests see one order", "anchors": ["src/dok/dok.rs:DoK::to_coo", "src/dok/dok.rs:DoK::to_csr", "src/dok/dok.rs:DoK::to_csc", "src/dok/dok.rs:DoK::to_dense"]}
{"id": "C33", "title": "from_dense round trips", "statement": "For every rectangular dense array, from_dense (Coo, CSR, CSC, DoK) followed by to_dense returns the same array; nnz is the number of non-zero elements, no zero is stored, and the CSR/CSC result is canonical.", "quantifier": "every rectangular dense array (CSR/CSC: with at least one row); dimensions and number of non-zero elements representable in the index type", "why_tests_cant": "all arrays", "anchors": ["src/coo/coo.rs:Coo::from_dense", "src/csr/csr.rs:CSR::from_dense", "src/csc/csc.rs:CSC::from_dense", "src/dok/dok.rs:DoK::from_dense"]}
{"id": "C34", "title": "undirected / weak connected components", "statement": "connected_components with directed=false or Weak connection on a square valid graph terminates without panic and returns (k, labels) with labels[u]=labels[v] iff u and v are joined by a path in the graph with edges taken in both directions; the labels used are exactly 0..k, numbered by first occurrence; non-square input returns Err.", "quantifier": "every graph (any pattern, self-loops, duplicates, any n including 0) whose node numbers the index type can represent", "why_tests_cant": "reachability over all graphs; stack is threaded through the labels array", "anchors": ["src/graph.rs:connected_components", "src/graph.rs:connected_components_undirected"]}
{"id": "C35", "title": "strongly connected components", "statement": "connected_components(directed, Strong) on a square valid graph terminates without panic and returns (k, labels) with labels[u]=labels[v] iff each is reachable from the other, and the labels used are exactly 0..k.", "quantifier": "every directed graph (any pattern, self-loops, duplicate entries, any n including 0)", "why_tests_cant": "Pearce's algorithm with memory-shared stacks over all graphs", "anchors": ["src/graph.rs:connected_components", "src/graph.rs:connected_components_directed"]}
{"id": "C36", "title": "CSR::connected_components / cs_graph_components", "statement": "For a graph with symmetric pattern it returns the number of components among non-isolated nodes, flags isolated nodes (empty rows) with a negative value and flags two other nodes equal iff they are connected, component numbers being 0..n_comp. For any other pattern the classes are those of successive searches: the first node of each class reaches the class along edges between nodes with non-empty rows, and no such edge leads into a later class. Non-square input returns Err.", "quantifier": "every graph and every flag type that holds -2 and the component numbers", "why_tests_cant": "reachability over all graphs", "anchors": ["src/graph.rs:cs_graph_components", "src/csr/csr.rs:CSR::connected_components"]}
{"id": "C37", "title": "depth_first_order visits exactly the reachable nodes", "statement": "depth_first_order(graph, start, directed) with start < n terminates without panic and returns a duplicate-free node list starting at start, containing exactly the nodes reachable from start (along edges; in both directions if undirected); non-square input returns Err.", "quantifier": "every graph and start node; node numbers representable in the index type", "why_tests_cant": "reachability over all graphs", "anchors": ["src/graph.rs:depth_first_order", "src/graph.rs:depth_first_directed", "src/graph.rs:depth_first_undirected"]}
{"id": "C38", "title": "depth_first_order predecessors form a depth-first tree", "statement": "predecessors[v]=Some(u) implies u->v is an edge (either direction if undirected) and u precedes v in the node list; every listed node except start has one; start and unreached nodes have None; and the list is a depth-first order: each node's parent is the latest earlier-listed node that still had an unvisited successor.", "quantifier": "every graph and start node; node numbers representable in the index type", "why_tests_cant": "order property over all graphs", "anchors": ["src/graph.rs:depth_first_order"]}
{"id": "C39", "title": "row and column scaling", "statement": "csr_scale_rows multiplies row i by x[i] and csr_scale_columns column j by x[j], in place, leaving the pattern unchanged.", "quantifier": "every matrix shape, every stored pattern (sorted or not, with or without duplicates) and every value assignment and x", "why_tests_cant": "all matrices", "anchors": ["src/row.rs:csr_scale_rows", "src/row.rs:csr_scale_columns"]}
{"id": "C40", "title": "multi-vector products", "statement": "csr_matvecs and csc_matvecs accumulate A X into Y for row-major blocks of n_vecs vectors, touching only Y[0 .. rows*n_vecs).", "quantifier": "every matrix shape, every stored pattern (sorted or not, with or without duplicates) and every value assignment, every n_vecs and X, Y", "why_tests_cant": "block index arithmetic for all shapes", "anchors": ["src/row.rs:csr_matvecs", "src/col.rs:csc_matvecs", "src/util.rs:axpy"]}
{"id": "C41", "title": "row slicing kernels", "statement": "csr_row_index appends exactly the entries of the requested rows in order; csr_row_slice appends those of rows start, start+step, ... < stop, and terminates for every argument.", "quantifier": "every matrix shape, every stored pattern (sorted or not, with or without duplicates) and every value assignment and every index list / (start, stop, step)", "why_tests_cant": "includes termination", "anchors": ["src/row.rs:csr_row_index", "src/row.rs:csr_row_slice"]}
{"id": "C42", "title": "column indexing kernels", "statement": "csr_column_index1 then csr_column_index2 with col_order the (stable) argsort of col_idxs produce a valid CSR whose entry (i,c) is A[i, col_idxs[c]], including repeated columns.", "quantifier": "every matrix shape, every stored pattern (sorted or not, with or without duplicates) and every value assignment and every column list; number of requested columns and of resulting entries representable in the index type", "why_tests_cant": "two-pass algorithm with cumulative offsets", "anchors": ["src/row.rs:csr_column_index1", "src/row.rs:csr_column_index2"]}
{"id": "C43", "title": "csr_count_diagonals counts occupied diagonals", "statement": "Returns the number of distinct values of (column - row) over the stored entries, for every valid matrix.", "quantifier": "every matrix shape, every stored pattern (sorted or not, with or without duplicates) and every value assignment", "why_tests_cant": "includes entries below the diagonal", "anchors": ["src/row.rs:csr_count_diagonals"]}
{"id": "C44", "title": "constructors validate lengths", "statement": "Coo::new, CSR::new and CSC::new return Ok iff the documented length conditions hold, Ok keeps the arguments unchanged, and they never panic for non-negative final pointers.", "quantifier": "every argument tuple", "why_tests_cant": "iff over all inputs", "anchors": ["src/coo/coo.rs:Coo::new", "src/csr/csr.rs:CSR::new", "src/csc/csc.rs:CSC::new"]}
{"id": "C45", "title": "CSR::get returns the matrix entry", "statement": "get(i,j) for 0<=i<rows, 0<=j returns the entry A[i,j] of the matrix.", "quantifier": "every matrix shape, every stored pattern (sorted or not, with or without duplicates) and every value assignment", "why_tests_cant": "all positions", "anchors": ["src/csr/csr.rs:CSR::get"]}
{"id": "C46", "title": "complex views", "statement": "conj, real, imag, h, with_real, with_imag act entrywise on the stored values (h is the conjugate transpose), keep the pattern, and A = real + i*imag; never panic on valid matrices.", "quantifier": "every valid complex matrix", "why_tests_cant": "all matrices", "anchors": ["src/csr/ccsr.rs:CCSR", "src/csc/ccsc.rs:CCSC", "src/coo/ccoo.rs:CCoo"]}
{"id": "C47", "title": "with_diagonal / identity / with_size", "statement": "with_diagonal(d) denotes diag(d), identity(n) the identity, with_size the zero matrix; all are valid; no panic when n is representable.", "quantifier": "every vector and size; size representable in the index type (otherwise with_diagonal panics)", "why_tests_cant": "all sizes", "anchors": ["src/coo/coo.rs:Coo::with_diagonal", "src/coo/coo.rs:Coo::identity", "src/csr/csr.rs:CSR::with_diagonal", "src/csc/csc.rs:CSC::with_diagonal", "src/csr/csr.rs:CSR::with_size"]}
{"id": "C48", "title": "Coo + Coo", "statement": "The + operator on Coo panics iff the shapes differ; otherwise returns a canonical CSR denoting the entrywise sum.", "quantifier": "every pair of valid Coo matrices with fewer entries together than the largest value of the index type", "why_tests_cant": "all matrices", "anchors": ["src/coo/std_ops.rs:add"]}
{"id": "C49", "title": "textual output lists the stored entries", "statement": "to_string of Coo, CSR, CSC emits one line (i, j) v per stored entry in storage order; to_table shows for each row and column the stored value or '-' (last stored value on duplicates).", "quantifier": "every valid matrix", "why_tests_cant": "all matrices", "anchors": ["src/csr/csr.rs:CSR::to_string", "src/csc/csc.rs:CSC::to_string", "src/coo/coo.rs:Coo::to_string", "src/csr/table.rs:csr_table"]}
{"id": "C50", "title": "arbitrary compositions of matrix operations behave as matrix algebra", "statement": "Any finite expression built from Coo/CSR/CSC constructors (with_size, with_diagonal, identity, from_dense) and +, -, *, transpose, format conversion, scaling, stacking (v_stack, h_stack, v_stack3, h_stack3), block composition, upper, select, sum_duplicates, sort_indexes evaluates without panic or Err when shapes agree and indexes are representable, yields a structurally valid matrix, and denotes the value of the same expression in matrix algebra: to_dense, diagonal and mat_vec of the result return that matrix, its diagonal and its product with a vector.", "quantifier": "every finite well-shaped expression tree", "why_tests_cant": "all histories of operations", "anchors": ["src/csr/csr.rs", "src/csr/std_ops.rs", "src/csc/csc.rs", "src/coo/coo.rs"]}
{"id": "C51", "title": "eigs argument validation and result assembly", "statement": "eigs returns Err for non-square matrices and for nev outside its documented range, and the returned eigenvalues are the complex numbers dr[i] + i di[i] delivered by ARPACK.", "quantifier": "every matrix shape, nev and ARPACK output", "why_tests_cant": "FFI results cannot be enumerated", "anchors": ["src/eigen/real.rs:eigs"]}
{"id": "C52", "title": "arguments and buffers handed to the foreign eigensolver", "statement": "Every call eigs makes to the foreign routines dnaupd and dneupd meets their documented argument and buffer-size preconditions (0 < nev < ncv <= n, workspace lengths, leading dimensions not larger than the allocated arrays).", "quantifier": "every matrix, nev and behaviour of the foreign library", "why_tests_cant": "a buffer overrun in foreign code shows only for some inputs and allocators", "anchors": ["src/eigen/real.rs:eigs"]}
{"id": "C53", "title": "conversions keep every stored value, in order, whatever the scalars", "statement": "CSR::to_csc, CSC::to_csr, to_coo (of CSC, and of CSR without unused storage), sort_indexes and the transposes keep, for every position (i,j), the list of values stored for that position in storage order (at (j,i) for a transpose); csr_eliminate_zeros removes from each list exactly the values that compare equal to zero.", "quantifier": "every matrix shape, every stored pattern (sorted or not, with or without duplicates) and every value assignment and every interpretation of the scalar operations (no algebraic law assumed, so floating point included); row and column numbers representable in the index type for the conversions", "why_tests_cant": "rounding makes the order of duplicates observable; tests compare sums of exact numbers", "anchors": ["src/csr/csr.rs:CSR::to_csc", "src/csc/csc.rs:CSC::to_csr", "src/csc/csc.rs:CSC::to_coo", "src/csr/csr.rs:CSR::to_coo", "src/row.rs:csr_sort_indices", "src/row.rs:csr_eliminate_zeros"]}
{"id": "C54", "title": "order in which duplicates are summed", "statement": "Coo::to_csr, Coo::to_csc and sum_duplicates (CSR, CSC) replace the values v1, v2, ..., vn stored for a position by the single value (...(v1 + v2) + ...) + vn in storage order, and store nothing where nothing was stored.", "quantifier": "every matrix shape, every stored pattern (sorted or not, with or without duplicates) and every value assignment and every interpretation of the scalar operations (no algebraic law assumed, so floating point included); fewer entries than the largest value of the index type", "why_tests_cant": "floating-point addition is not associative: only a fixed order gives reproducible results", "anchors": ["src/coo/coo.rs:Coo::to_csr", "src/coo/coo.rs:Coo::to_csc", "src/row.rs:csr_sum_duplicates", "src/coord.rs:coo_tocsr"]}
{"id": "C55", "title": "order of summation in dense conversion", "statement": "to_dense of Coo, CSR and CSC returns at (i,j) the value 0 + v1 + v2 + ... added left to right over the values stored for (i,j) in storage order.", "quantifier": "every matrix shape, every stored pattern (sorted or not, with or without duplicates) and every value assignment and every interpretation of the scalar operations (no algebraic law assumed, so floating point included)", "why_tests_cant": "the same for rounding arithmetic", "anchors": ["src/coo/coo.rs:Coo::to_dense", "src/csr/csr.rs:CSR::to_dense", "src/csc/csc.rs:CSC::to_dense", "src/row.rs:csr_todense"]}
{"id": "C56", "title": "order of summation in matrix-vector products", "statement": "CSR::mat_vec computes y[i] as 0 + v1*x[c1] + v2*x[c2] + ... left to right over row i in storage order; CSC::mat_vec adds the products column after column in storage order; coo_matvec adds them to y in triplet order.", "quantifier": "every matrix shape, every stored pattern (sorted or not, with or without duplicates) and every value assignment and every x and every interpretation of the scalar operations (no algebraic law assumed, so floating point included)", "why_tests_cant": "the same for rounding arithmetic", "anchors": ["src/row.rs:csr_matvec", "src/col.rs:csc_matvec", "src/coord.rs:coo_matvec"]}
{"id": "C57", "title": "order of summation in matrix products", "statement": "In the product of two CSR matrices, row i stores exactly the columns k with at least one contribution v*w (v over row i of A in storage order, w over the values B stores at the matching position in storage order) whose left-to-right sum from zero does not compare equal to zero, once each, with that sum as value. CSC products: the same by columns, with the factors in the order w*v.", "quantifier": "every pair of valid matrices of matching shapes and every interpretation of the scalar operations (no algebraic law assumed, so floating point included); number of product positions with a stored contribution representable in the index type", "why_tests_cant": "linked-list accumulator; the order of floating-point additions is not visible in tests with small integers", "anchors": ["src/row.rs:csr_matmat", "src/col.rs:csc_matmat", "src/csr/csr.rs:CSR::mat_mat", "src/csc/csc.rs:CSC::mat_mat"]}
{"id": "C58", "title": "values computed by element-wise operations", "statement": "csr_binop_csr with any operation, and + and - of CSR and CSC built on it, store at each position stored in an operand, once and only if it is non-zero: op(v, w) of the stored values (zero for a missing one) if both operands are canonical, and op(0 + v1 + v2 + ..., 0 + w1 + ...) otherwise.", "quantifier": "every pair of equal-shape valid matrices and every interpretation of the scalar operations (no algebraic law assumed, so floating point included); fewer stored entries together than the largest value of the index type", "why_tests_cant": "the two code paths agree only up to the scalar laws", "anchors": ["src/row.rs:csr_binop_csr", "src/row.rs:csr_binop_csr_canonical", "src/row.rs:csr_binop_csr_general", "src/csr/std_ops.rs", "src/csc/csc.rs", "src/csc/std_ops.rs"]}
{"id": "C59", "title": "display of complex numbers", "statement": "The display string of a complex value consists of the real part, the sign of the imaginary part, the letter j and the magnitude of the imaginary part, so that the sign appears once.", "quantifier": "every complex value and every number formatter", "why_tests_cant": "negative imaginary parts are one of infinitely many cases", "anchors": ["src/traits.rs"]}
{"id": "C60", "title": "mutable access to the stored values", "statement": "Writing other values through values_mut leaves the matrix valid, keeps its dimensions and its stored positions and puts the k-th new value at the k-th stored position; storage beyond the stored entries does not affect the represented matrix.", "quantifier": "every matrix shape, every stored pattern (sorted or not, with or without duplicates) and every value assignment and every sequence of replaced values", "why_tests_cant": "any aliasing of values and pattern would show only for some patterns", "anchors": ["src/csr/csr.rs:CSR::values_mut", "src/csc/csc.rs:CSC::values_mut", "src/coo/coo.rs:Coo::values_mut"]}
{"id": "C61", "title": "all conversion paths between formats end in the same arrays", "statement": "Coo to CSR to CSC gives exactly the arrays of Coo to CSC, and Coo to CSC to CSR those of Coo to CSR; transposing before or after the conversion from Coo gives the same arrays; CSR (CSC) to Coo and back gives exactly the arrays of sum_duplicates, hence the matrix itself if it was canonical; converting CSR to CSC and back gives exactly the arrays of sort_indexes.", "quantifier": "every matrix shape, every stored pattern (sorted or not, with or without duplicates) and every value assignment and every interpretation of the scalar operations (no algebraic law assumed, so floating point included); fewer entries than the largest value of the index type, row and column numbers representable in it; for the paths that start with CSR::to_coo no unused storage (C05)", "why_tests_cant": "equality of arrays for every input and every path", "anchors": ["src/coo/coo.rs:Coo::to_csr", "src/coo/coo.rs:Coo::to_csc", "src/csr/csr.rs:CSR::to_csc", "src/csc/csc.rs:CSC::to_csr", "src/csr/csr.rs:CSR::to_coo", "src/csc/csc.rs:CSC::to_coo", "src/row.rs:csr_sort_indices"]}
{"id": "C62", "title": "the order of the triplets does not matter", "statement": "Two Coo matrices with the same triplets in different orders convert to identical CSR and identical CSC arrays, if addition of scalars is commutative and associative or if no position occurs twice.", "quantifier": "every pair of valid Coo matrices whose triplets are permutations of each other with fewer entries than the largest value of the index type", "why_tests_cant": "factorially many orders", "anchors": ["src/coo/coo.rs:Coo::to_csr", "src/coo/coo.rs:Coo::to_csc", "src/coord.rs:coo_tocsr"]}
{"id": "C63", "title": "uniqueness of the canonical form", "statement": "Two canonical CSR matrices without stored zeros that represent the same matrix have the same row pointers and the same stored triplets; in consequence a + b and b + a of canonical operands return identical arrays, and (a + b) + c and a + (b + c) the same row pointers and triplets.", "quantifier": "every pair or triple of canonical matrices of one shape over a commutative monoid of scalars with fewer stored entries together than the largest value of the index type", "why_tests_cant": "equality for every input", "anchors": ["src/csr/std_ops.rs", "src/row.rs:csr_binop_csr_canonical", "src/row.rs:csr_has_canonical_format"]}
{"id": "C64", "title": "concurrent eigs calls are serialised at the library", "statement": "When eigs is called from any number of threads, no two threads are ever inside the foreign library at the same time, the foreign calls have the effect of calls made one after the other, no thread ever finds the lock poisoned, and there is no deadlock: as long as one of the calls has not returned, some thread can go on.", "quantifier": "every number of threads, every matrix and nev per thread, every behaviour of the foreign library and every schedule", "why_tests_cant": "schedules cannot be enumerated by tests", "anchors": ["src/eigen/real.rs:eigs", "src/eigen/real.rs:MUTEX"]}
{"id": "C65", "title": "the result of eigs does not depend on other threads", "statement": "The outcome (result, error or panic) of an eigs call is the outcome of the sequential function, whatever eigs calls other threads make at the same time; and the call can always be brought to its end if the sequential one ends.", "quantifier": "every number of threads, every matrix and nev per thread, every behaviour of the foreign library (including one with static variables) and every schedule", "why_tests_cant": "schedules cannot be enumerated by tests", "anchors": ["src/eigen/real.rs:eigs", "src/eigen/real.rs:MUTEX"]}
{"id": "C66", "title": "stacking, composing, selecting and construction move values unchanged, whatever the scalars", "statement": "For every position of the result of Coo v_stack/h_stack (two and three blocks), Coo compose/compose3, upper, select, submatrix extraction, column indexing and from_dense, the values stored there are, in order, the values stored at the position they come from. CSC compose, CSR h_stack and Coo + add these values left to right in storage order, with no other rounding. No law of arithmetic is assumed, so this holds for floating-point numbers.", "quantifier": "every matrix, every selection, every scalar type with arbitrary +, == and zero, every index type; dimensions and numbers of entries representable in the index type as in the properties on the same operations (C22, C23, C26-C28, C33, C42, C48)", "why_tests_cant": "all scalar types, values and shapes", "anchors": ["src/coo/coo.rs:Coo::v_stack", "src/coo/coo.rs:Coo::h_stack", "src/coo/coo.rs:Coo::compose", "src/coo/coo.rs:Coo::compose3", "src/coo/coo.rs:Coo::upper", "src/csr/csr.rs:CSR::select", "src/csr/csr.rs:CSR::h_stack", "src/csc/csc.rs:CSC::select", "src/csc/csc.rs:CSC::compose", "src/row.rs:get_csr_submatrix", "src/row.rs:csr_column_index2"]}
{"id": "C67", "title": "order of the sums in diagonal and in products with several vectors, whatever the scalars", "statement": "diagonal of CSR, CSC and Coo (and the kernels with an offset inside the matrix) returns for each i the sum from zero, left to right in storage order, of the values stored at (i, i). csr_matvecs adds to each output element the products of the entries of its row in storage order; csc_matvecs goes column by column. Output elements past the matrix keep their value. No law of arithmetic is assumed, so rounding is fixed too.", "quantifier": "every valid matrix, every offset inside it, every number of vectors, every scalar type with arbitrary +, * and zero", "why_tests_cant": "all scalar types and values", "anchors": ["src/csr/csr.rs:CSR::diagonal", "src/csc/csc.rs:CSC::diagonal", "src/coo/coo.rs:Coo::diagonal", "src/row.rs:csr_diagonal", "src/col.rs:csc_diagonal", "src/row.rs:csr_matvecs", "src/col.rs:csc_matvecs"]}
{"id": "C68", "title": "value-by-value operations apply the operation to every stored value and do nothing else", "statement": "Scalar multiplication of CSR (from either side), negation, row and column scaling, conj, real, imag, h, with_real, with_imag, with_diagonal, identity: for every position the list of stored values of the result is the image of the list stored in the argument, in the same order. Nothing is merged, dropped or added, and no law of arithmetic is assumed.", "quantifier": "every valid matrix and factor, every scalar type with arbitrary *, negation, zero and one; sizes representable in the index type for the constructors. CSC scalar multiplication is not included, it is wrong (C20)", "why_tests_cant": "all scalar types and values", "anchors": ["src/csr/std_ops.rs", "src/csc/std_ops.rs", "src/coo/std_ops.rs", "src/row.rs:csr_scale_rows", "src/row.rs:csr_scale_columns", "src/csr/ccsr.rs", "src/csc/ccsc.rs", "src/coo/ccoo.rs", "src/csr/csr.rs:CSR::with_diagonal"]}
{"id": "C69", "title": "the index type does not influence results", "statement": "For index types I and J such that every value of I is a value of J, any call with index type I in a build with overflow checks has exactly the outcome of the same call with index type J in a build with or without overflow checks (the same value, Err, or panic), unless the call with I panics because a number is not representable in I (I::from(..).unwrap() or an overflowing addition or subtraction). This holds for every constructor, conversion, operator, stacking, selection, DoK and graph method that uses the index type, and for whole programs composed of them, also on invalid matrices.", "quantifier": "every pair of index types, both build profiles for J, every argument, valid or not", "why_tests_cant": "all types and inputs", "anchors": ["src/traits.rs:Integer", "src/row.rs", "src/coord.rs", "src/coo/coo.rs", "src/csr/csr.rs", "src/csc/csc.rs", "src/dok/dok.rs", "src/graph.rs"]}
{"id": "C70", "title": "no overflow goes unnoticed", "statement": "A finite expression over valid matrices with agreeing shapes, however large its dimensions and numbers of entries, either evaluates to the matrix that the expression denotes in matrix algebra or panics because a number is not representable in the index type. It never returns Err and never returns a wrong matrix. (Builds with overflow checks.)", "quantifier": "every finite well-shaped expression tree, every index type, sizes not bounded by the index type", "why_tests_cant": "all sizes, all histories of operations", "anchors": ["src/traits.rs:Integer", "src/row.rs", "src/coord.rs", "src/coo/coo.rs", "src/csr/csr.rs", "src/csc/csc.rs"]}
{"id": "C71", "title": "builds without overflow checks do not corrupt matrices", "statement": "In a build without overflow checks (release profile), where index arithmetic wraps around, a finite well-shaped expression over valid matrices evaluates to the matrix that it denotes in matrix algebra or panics; whatever a build with overflow checks returns is returned here as well.", "quantifier": "every finite well-shaped expression tree, every index type", "why_tests_cant": "all sizes, all histories of operations; tests run in the profile with checks", "anchors": ["src/traits.rs:Integer", "src/row.rs:csr_binop_csr_general", "src/coo/coo.rs:Coo::v_stack", "src/coo/coo.rs:Coo::h_stack", "src/coo/coo.rs:Coo::upper"]}
{"id": "C72", "title": "step-by-step construction of a coordinate matrix", "statement": "After any sequence of Coo::push and Coo::extend calls with indices inside the matrix and slices of equal lengths, the matrix is valid, has the same shape, and stores the old triplets followed by the added ones in the order of the calls. A matrix built this way from an empty one converts to the dense, CSR or CSC matrix whose entry at each position is the sum of all the values added for it.", "quantifier": "every finite sequence of push and extend calls, every shape, every index type", "why_tests_cant": "all histories of calls", "anchors": ["src/coo/coo.rs:Coo::push", "src/coo/coo.rs:Coo::extend", "src/coo/coo.rs:Coo::with_size", "src/coo/coo.rs:Coo::to_csr", "src/coo/coo.rs:Coo::to_csc", "src/coo/coo.rs:Coo::to_dense"]}
{"id": "C73", "title": "indices outside the matrix are caught", "statement": "The constructors do not check index values. A call on a matrix that stores a row or column index outside its shape (negative or too large), or a coordinate matrix whose arrays have different lengths, panics or returns Err; it never computes a result from such an entry.", "quantifier": "every matrix with valid pointers and arbitrary minor indices, every coordinate matrix with arbitrary arrays", "why_tests_cant": "all invalid inputs, any position of the bad entry", "anchors": ["src/coo/coo.rs:Coo::to_dense", "src/coo/coo.rs:Coo::to_csr", "src/coo/coo.rs:Coo::to_csc", "src/coo/coo.rs:Coo::extend", "src/coord.rs:coo_matvec", "src/coord.rs:coo_todense", "src/csr/csr.rs:CSR::mat_vec", "src/csr/csr.rs:CSR::mat_mat", "src/csr/csr.rs:CSR::to_dense", "src/csr/csr.rs:CSR::to_csc", "src/csc/csc.rs:CSC::mat_vec", "src/csc/csc.rs:CSC::mat_mat", "src/csc/csc.rs:CSC::to_csr", "src/row.rs:csr_scale_columns"]}
{"id": "C74", "title": "a panic of the scalar type during an in-place call leaves a usable matrix", "statement": "If an addition or multiplication of scalars panics (checked integer overflow, a scalar type of the user) during sum_duplicates, csr_scale_rows or csr_scale_columns and the panic is caught, the matrix is still valid with the same shape, the positions processed before have their new value, those processed later their old values, and no position has anything else: for sum_duplicates every position still has the same sum as before.", "quantifier": "every valid matrix, every scalar type with operations that may panic, every point of the call at which one panics", "why_tests_cant": "all crash points; the state after a caught panic is never looked at by tests", "anchors": ["src/csr/csr.rs:CSR::sum_duplicates", "src/csc/csc.rs:CSC::sum_duplicates", "src/row.rs:csr_sum_duplicates", "src/row.rs:csr_scale_rows", "src/row.rs:csr_scale_columns"]}
{"id": "C75", "title": "integer scalars: the exact result or a panic", "statement": "With an integer scalar type in a build with overflow checks, every call has the outcome that the same code has over unbounded integers, or panics: mat_vec, mat_mat, + and -, scaling, negation, conversions, sum_duplicates, to_dense and diagonal return the exact matrix or vector or panic, never a wrapped value. CSR mat_vec panics if and only if a term or a partial sum in storage order is not a value of the type. Element-wise division rounds towards zero, and panics whenever a position stored in one of the operands has no non-zero divisor.", "quantifier": "every integer scalar type, every index type, every matrix and value; for the named operations: valid matrices with sizes representable in the index type as in the properties on the same operations (C01, C02, C06, C07, C13-C18)", "why_tests_cant": "all values near the limits of the type, all orders of partial sums", "anchors": ["src/traits.rs:Scalar", "src/row.rs", "src/col.rs", "src/coord.rs", "src/util.rs:axpy", "src/csr/csr.rs", "src/csc/csc.rs", "src/coo/coo.rs", "src/dok/dok.rs", "src/csr/std_ops.rs", "src/csc/std_ops.rs", "src/coo/std_ops.rs"]}
{"id": "C76", "title": "no overflow of integer scalars goes unnoticed in programs", "statement": "With an integer scalar type in a build with overflow checks, a finite expression over valid matrices with agreeing shapes evaluates to the matrix it denotes over the integers, or panics because a number is not representable in the index type or in the scalar type. If all sizes fit the index type, only the scalar type can be the cause.", "quantifier": "every finite well-shaped expression tree, every integer scalar type and index type", "why_tests_cant": "all values and sizes, all histories of operations", "anchors": ["src/traits.rs:Scalar", "src/row.rs", "src/coord.rs", "src/coo/coo.rs", "src/csr/csr.rs", "src/csc/csc.rs"]}
{"id": "C77", "title": "integer scalars without overflow checks: exact modulo 2^w", "statement": "With a w-bit integer scalar type in a build without overflow checks, each entry of the value of a finite expression over valid matrices with agreeing shapes and sizes that fit the index type is the exact integer entry reduced modulo 2^w, for signed and for unsigned types. So an entry whose exact value is representable is that value, whatever overflowed on the way. The same holds for mat_vec.", "quantifier": "every width w, every finite well-shaped expression tree, every index type, every vector", "why_tests_cant": "all values, all intermediate overflows, all histories of operations", "anchors": ["src/traits.rs:Scalar", "src/row.rs", "src/coord.rs", "src/coo/coo.rs", "src/csr/csr.rs", "src/csc/csc.rs"]}
{"id": "C78", "title": "rounding errors are bounded", "statement": "With floating-point scalars, every finite result has the usual forward error bound: mat_vec and mat_mat (CSR, CSC) are within ((1+u)^n - 1) times the product of the absolute values (plus n(1+u)^n times the underflow threshold) of the exact product, n the number of products added; + and - have one rounding per entry for canonical operands and as many as the larger number of duplicates otherwise; merging n duplicates (conversion from Coo, sum_duplicates) and to_dense have n-1 roundings; scaling one rounding per value. Entries dropped because they compare equal to zero are within the same bound.", "quantifier": "every floating-point format with relative error u of + - *, absolute error eta of underflowing products, exact addition to zero; every valid matrix, vector and factor; results that are not finite are excluded; sizes representable in the index type as in the properties on the same operations (C54-C58)", "why_tests_cant": "all values, all lengths of sums, all orders of storage", "anchors": ["src/row.rs:csr_matvec", "src/row.rs:csr_matmat", "src/row.rs:csr_binop_csr", "src/row.rs:csr_sum_duplicates", "src/col.rs:csc_matvec", "src/coord.rs:coo_tocsr", "src/csr/std_ops.rs", "src/csc/std_ops.rs"]}
{"id": "C79", "title": "index values never leave the index type", "statement": "Every row index, column index and pointer stored in a matrix that a call returns is a value of the index type of its arguments, in builds with and without overflow checks and also when the arguments are not valid matrices: conversions, constructors, products, + and -, stacking, composing, selections, sorting, merging duplicates, DoK updates, element-wise kernels, and every finite expression. The component numbers of connected_components are values of the flag type and their count is a value of the index type.", "quantifier": "every matrix (valid or not), every argument, every index type, both build profiles", "why_tests_cant": "all index types and values; the wrap-around cases need matrices with more than I::MAX rows, columns or entries", "anchors": ["src/coo/coo.rs", "src/csr/csr.rs", "src/csc/csc.rs", "src/dok/dok.rs", "src/row.rs", "src/col.rs", "src/coord.rs", "src/graph.rs:cs_graph_components"]}
{"id": "C80", "title": "running times of the kernels", "statement": "The running times given in the documentation of the kernels hold for every input, whether the call returns or panics: coo_tocsr and csr_tocsc take O(nnz + max(n_row, n_col)) steps, coo_matvec O(nnz), csr_matvec O(nnz + n_row), csc_matvec O(nnz + n_col), csr_diagonal O(nnz + min(n_row, n_col)) for every offset; expandptr takes O(nnz + n_row). A step is one access to an array element or one round of a loop.", "quantifier": "every size, every matrix with valid pointers (arbitrary arrays for the coordinate kernels), every offset", "why_tests_cant": "a test measures finitely many inputs; the bound is about all sizes", "anchors": ["src/coord.rs:coo_tocsr", "src/coord.rs:coo_matvec", "src/row.rs:csr_tocsc", "src/row.rs:csr_matvec", "src/row.rs:csr_diagonal", "src/row.rs:expandptr", "src/col.rs:csc_matvec"]}
{"id": "C81", "title": "running time of the matrix product", "statement": "Both passes of the product (csr_matmat_maxnnz and csr_matmat) take O(n_row*K^2 + max(n_row, n_col)) steps, where K is the maximum number of entries in a row of A and column of B (as documented).", "quantifier": "every pair of matrices, every K, every outcome", "why_tests_cant": "all sizes and all distributions of the entries", "anchors": ["src/row.rs:csr_matmat", "src/row.rs:csr_matmat_maxnnz"]}
{"id": "C82", "title": "running time of the search for strong components", "statement": "On every valid square graph with V nodes and E stored entries the search for strongly connected components takes O(E + V) steps (as documented).", "quantifier": "every valid square graph", "why_tests_cant": "all graphs of all sizes; the cost of restarting the search and of relinking the stack depends on the order of the edges", "anchors": ["src/graph.rs:connected_components_directed"]}
{"id": "C83", "title": "the machine word does not influence results", "statement": "On a machine of any word size, in builds with and without overflow checks, the calls that add, multiply or subtract usize values or ask for memory have exactly the outcome they have with unbounded numbers, as long as the dimensions of the result and the memory for it fit the machine: CSR::new, CSC::new, CSR::with_size, mat_mat and the transposes of both formats, stacking and composing two or three blocks of every format, Coo::upper, Coo::from_dense, Coo::to_csr, Coo::to_csc, CSR::to_csc, CSC::to_csr, csr_diagonal, csr_row_slice, coo_todense, csr_matvecs, csc_matvecs, and the search for strong components.", "quantifier": "every word size, both build profiles, every matrix and argument", "why_tests_cant": "all sizes near the limits of the machine; such matrices are not built in tests", "anchors": ["src/csr/csr.rs:CSR::new", "src/csr/csr.rs:CSR::with_size", "src/csr/csr.rs:CSR::mat_mat", "src/coo/coo.rs:Coo::v_stack", "src/coo/coo.rs:Coo::h_stack", "src/coo/coo.rs:Coo::compose", "src/coo/coo.rs:Coo::upper", "src/coo/coo.rs:Coo::from_dense", "src/coo/coo.rs:Coo::to_csr", "src/row.rs:csr_diagonal", "src/row.rs:csr_row_slice", "src/row.rs:csr_matvecs", "src/col.rs:csc_matvecs", "src/coord.rs:coo_todense", "src/graph.rs:connected_components_directed"]}
{"id": "C84", "title": "no overflow of the machine word goes unnoticed", "statement": "Whatever a call returns on a machine of any word size, in builds with and without overflow checks, is what it would return with unbounded numbers: an overflow of usize or a request for more memory than can exist ends in a panic or Err. In particular the number of positions of a product is exact or the call panics.", "quantifier": "every word size, both build profiles, every argument that can exist in memory", "why_tests_cant": "all sizes near the limits of the machine; tests run in the profile with checks", "anchors": ["src/csr/csr.rs:CSR::new", "src/csr/csr.rs:CSR::with_size", "src/csr/csr.rs:CSR::mat_mat", "src/row.rs:csr_matmat_maxnnz", "src/row.rs:csr_count_diagonals", "src/row.rs:csr_row_slice", "src/row.rs:csr_diagonal", "src/coord.rs:coo_todense", "src/coo/coo.rs:Coo::v_stack", "src/coo/coo.rs:Coo::h_stack", "src/coo/coo.rs:Coo::upper", "src/coo/coo.rs:Coo::from_dense", "src/coo/coo.rs:Coo::to_csr", "src/graph.rs:connected_components_directed"]}
{"id": "C85", "title": "Running time of the graph searches", "statement": "Searching a graph of V nodes and E stored entries for weakly connected components, for components of a symmetric matrix (CSR::connected_components) or in depth-first order takes O(V + E) steps.", "quantifier": "every valid square matrix, every start node, directed and undirected search; node numbers representable in the index type and, for CSR::connected_components, in the flag type", "why_tests_cant": "A test measures one graph; a linear bound is a statement about all of them, and a quadratic case such as a star or a graph of self-loops is easily missed.", "anchors": ["src/graph.rs:connected_components", "src/graph.rs:connected_components_undirected", "src/graph.rs:depth_first_order", "src/graph.rs:depth_first_directed", "src/graph.rs:depth_first_undirected", "src/graph.rs:cs_graph_components", "src/csr/csr.rs:CSR::connected_components"]}
{"id": "C86", "title": "changing the scalars commutes with every program", "statement": "If a map of scalars preserves 0, 1, +, -, *, negation and the test != 0, then any program composed of constructors, conversions, operators, sorting, merging, stacking, composing and selections, run on the images of its inputs, returns exactly the image of its result (the same arrays), and panics or returns Err exactly when the original does; to_dense, diagonal, mat_vec and get commute with it too. So conjugating all inputs of a complex program conjugates its result, and a complex program on real matrices computes what the real program computes.", "quantifier": "every pair of scalar types with arbitrary arithmetic, every such map, every finite expression over arbitrary (also invalid) matrices, every index type, both build profiles", "why_tests_cant": "all scalar types, all maps between them, all histories of operations", "anchors": ["src/traits.rs:Scalar", "src/row.rs", "src/col.rs", "src/coord.rs", "src/coo/coo.rs", "src/csr/csr.rs", "src/csc/csc.rs", "src/coo/std_ops.rs", "src/csr/std_ops.rs", "src/csc/std_ops.rs", "src/csr/ccsr.rs", "src/csc/ccsc.rs", "src/coo/ccoo.rs"]}
{"id": "C87", "title": "structure depends on structure only", "statement": "Conversions, transposing, negation, scaling, sorting, merging duplicates, stacking, composing, upper and selections never look at values to decide what to store: two programs of these operations that differ only in the values they are given, even in the scalar type, return matrices of the same shape with the same index arrays, or panic or fail in the same way. Connected components and depth-first order depend on the stored positions only; a stored zero is an edge.", "quantifier": "every pair of programs that differ in values only, every pair of scalar types with arbitrary arithmetic, arbitrary (also invalid) matrices, every index type, both build profiles", "why_tests_cant": "all values of all scalar types, among them NaN and zeros", "anchors": ["src/row.rs", "src/coord.rs", "src/coo/coo.rs", "src/csr/csr.rs", "src/csc/csc.rs", "src/graph.rs:connected_components", "src/graph.rs:depth_first_order", "src/csr/csr.rs:CSR::connected_components"]}
{"id": "C88", "title": "running times of conversions, scaling, format tests and in-place operations", "statement": "Whether the call returns or panics: csr_scale_rows, csr_todense, csr_tocoo, csr_sum_duplicates, csr_eliminate_zeros and csr_has_canonical_format take O(nnz + n_row) steps, csr_scale_columns and coo_todense O(nnz), csr_has_sorted_indices O(len(a_j) + n_row), and the products with several vectors O(nnz*(n_vecs + 1) + n) steps. A step is one access to an array element or one round of a loop.", "quantifier": "every size, every matrix with valid pointers (arbitrary arrays for coo_todense), every distribution of duplicates and zeros, both build profiles", "why_tests_cant": "a test measures finitely many inputs; the bound is about all sizes and all distributions of the entries", "anchors": ["src/row.rs:csr_scale_rows", "src/row.rs:csr_scale_columns", "src/row.rs:csr_todense", "src/row.rs:csr_tocoo", "src/row.rs:csr_has_sorted_indices", "src/row.rs:csr_has_canonical_format", "src/row.rs:csr_sum_duplicates", "src/row.rs:csr_eliminate_zeros", "src/row.rs:csr_matvecs", "src/col.rs:csc_matvecs", "src/coord.rs:coo_todense"]}
{"id": "C89", "title": "running time of element-wise operations", "statement": "An element-wise operation on two matrices takes O(nnz(A) + nnz(B) + n_row + n_col) steps whatever the operation, the order of the columns and the duplicates, and O(nnz(A) + nnz(B) + n_row) steps on the path for operands in canonical form.", "quantifier": "every pair of matrices with valid pointers, every operation, every outcome", "why_tests_cant": "all sizes and all distributions of the entries", "anchors": ["src/row.rs:csr_binop_csr", "src/row.rs:csr_binop_csr_general", "src/row.rs:csr_binop_csr_canonical"]}
{"id": "C90", "title": "running times of the selection of rows, columns and blocks", "statement": "With K the maximum number of entries in a row: selecting k rows takes O(k*(K + 1)) steps, selecting r rows and c columns together takes O(r*(K + c + 1)) steps, a block of consecutive rows and columns takes O(nnz + n_row) steps, and the two passes of the selection of columns take O(n_idx + nnz + n_row + n_col) and O(nnz + entries of the result) steps. An insertion into or look-up in a hash table counts one step.", "quantifier": "every matrix (with valid pointers for blocks and columns), every list of rows and columns, every bound of a block, every outcome", "why_tests_cant": "all sizes and all distributions of the entries", "anchors": ["src/row.rs:csr_row_index", "src/row.rs:csr_select", "src/row.rs:get_csr_submatrix", "src/row.rs:csr_column_index1", "src/row.rs:csr_column_index2"]}
{"id": "C91", "title": "histories of in-place calls", "statement": "Any sequence of sort_indexes, sum_duplicates, prune and values_mut()[k] = v on a CSR or CSC matrix leaves a valid matrix of the same shape whose rows (columns) are exactly those given by a simple list specification: sorting is stable, duplicates are added up in storage order and only if the matrix is not canonical, a write changes the k-th stored entry and nothing else, prune only gives up unused storage. A call panics exactly if the history writes to a position that does not exist at that point. Histories without writes never panic and never change an entry, and all those with at least one sum_duplicates leave the same rows as a single sum_duplicates.", "quantifier": "every valid matrix, sorted or not, with or without duplicates and unused storage, every finite sequence of calls, arbitrary scalars without any law (entries: any commutative monoid)", "why_tests_cant": "all histories: tests run finitely many short ones", "anchors": ["src/csr/csr.rs:CSR::sort_indexes", "src/csr/csr.rs:CSR::sum_duplicates", "src/csr/csr.rs:CSR::prune", "src/csr/csr.rs:CSR::values_mut", "src/csc/csc.rs:CSC::sort_indexes", "src/csc/csc.rs:CSC::sum_duplicates", "src/csc/csc.rs:CSC::prune", "src/csc/csc.rs:CSC::values_mut"]}
{"id": "C92", "title": "running times of the public methods", "statement": "The methods of the matrix types take a number of steps (accesses to array elements, rounds of loops, elements written by allocating, cloning and resizing, k*(log2 k+1) steps for the stable sort of k elements) within a constant times: products with a vector, diagonal, to_coo, the format tests: stored entries plus dimensions; to_csc, to_csr, the operators + and - of compressed matrices: stored entries plus rows plus columns; to_dense: stored entries plus rows*cols; transpose, negation and scaling: the lengths of the arrays; sort_indexes and sum_duplicates: E*(log2 K+1) plus rows (columns), K being the largest number of entries of a row; get: K; the matrix product: rows*K^2 plus dimensions; select of r rows and c columns: stored entries plus rows plus c plus r*(K+c+1); Coo::to_csr, Coo::to_csc and + of coordinate matrices: E*(log2 E+1) plus rows (columns); from_dense: rows*cols plus dimensions; with_diagonal, identity: the size; Coo::upper, Coo::diagonal, the stacks and compositions of coordinate matrices: the entries given; CSR::h_stack and CSC::compose: E*(log2 E+1) plus rows (columns).", "quantifier": "every matrix with valid pointers (for the product, get, transpose, from_dense, with_diagonal, Coo::upper, Coo::diagonal and the coordinate to_dense: any arrays; for CSR::h_stack and CSC::compose: blocks whose shapes fit), sorted or not, with or without duplicates, every outcome of the call, arbitrary scalar operations, debug and release build", "why_tests_cant": "an asymptotic bound is a statement about all sizes: measurements sample finitely many and blur the constants", "anchors": ["src/csr/csr.rs:CSR::mat_vec", "src/csr/csr.rs:CSR::mat_mat", "src/csr/csr.rs:CSR::select", "src/csr/csr.rs:CSR::sort_indexes", "src/csr/csr.rs:CSR::sum_duplicates", "src/csr/csr.rs:CSR::to_csc", "src/csr/csr.rs:CSR::to_dense", "src/csr/csr.rs:CSR::get", "src/csc/csc.rs:CSC::mat_vec", "src/csc/csc.rs:CSC::mat_mat", "src/csc/csc.rs:CSC::select", "src/csc/csc.rs:CSC::to_csr", "src/csc/csc.rs:CSC::sum_duplicates", "src/coo/coo.rs:Coo::to_csr", "src/coo/coo.rs:Coo::to_csc", "src/csr/std_ops.rs:Add", "src/csc/std_ops.rs:Add", "src/coo/std_ops.rs:Add", "src/coo/coo.rs:Coo::from_dense", "src/coo/coo.rs:Coo::with_diagonal", "src/coo/coo.rs:Coo::identity", "src/coo/coo.rs:Coo::upper", "src/coo/coo.rs:Coo::diagonal", "src/coo/coo.rs:Coo::v_stack", "src/coo/coo.rs:Coo::h_stack", "src/coo/coo.rs:Coo::compose", "src/csr/csr.rs:CSR::from_dense", "src/csr/csr.rs:CSR::with_diagonal", "src/csr/csr.rs:CSR::h_stack", "src/csc/csc.rs:CSC::from_dense", "src/csc/csc.rs:CSC::with_diagonal", "src/csc/csc.rs:CSC::compose"]}
{"id": "C93", "title": "laws of matrix algebra", "statement": "The operators on CSR and CSC matrices satisfy the laws of matrix algebra, down to what is stored: multiplication is associative and distributes over + and - on both sides, + is associative and commutative, a - a, a + (-a) and a * 0 store nothing, multiplying by the diagonal matrix of ones and adding the empty matrix change nothing. More generally, two programs that end in +, - or * on CSR matrices and mean the same matrix leave, after sum_duplicates, the same row pointers and the same stored triplets. The same holds of programs that end in + or * on CSC matrices, CSC times CSR, or CSC::add or CSC::subtract, and of a CSR program that means the transpose of a CSC program. The transpose of a product (sum) is the product in reverse order (the sum) of the transposes, array by array, for any scalars, also when it panics. (a*b)*x = a*(b*x), (b+c)*x = b*x + c*x, (b-c)*x = b*x - c*x and b*(x+y) = b*x + b*y for vectors; scalars may be moved through products.", "quantifier": "every conformable choice of valid matrices, sorted or not, with or without duplicates and stored zeros, whose results fit the index type; every ring of scalars with decidable equality (CSC products: commutative)", "why_tests_cant": "the two sides of a law are computed through different intermediate matrices; equality of what they store is a statement about all operands", "anchors": ["src/csr/std_ops.rs:Add", "src/csr/std_ops.rs:Sub", "src/csr/std_ops.rs:Mul", "src/csc/std_ops.rs:Add", "src/csc/std_ops.rs:Mul", "src/csr/csr.rs:CSR::mat_mat", "src/csr/csr.rs:CSR::mat_vec", "src/csr/csr.rs:CSR::transpose", "src/csr/csr.rs:CSR::sum_duplicates", "src/csc/csc.rs:CSC::sum_duplicates"]}
{"id": "C94", "title": "depth_first_order is the recursive depth-first search", "statement": "depth_first_order returns the nodes in exactly the order in which the textbook recursive depth-first search visits them, when that search looks at the successors of a node in the order in which they are stored and, for an undirected search, after them at the nodes with an edge to it in ascending order. The predecessor of every visited node is the node from which the recursive search visits it, and all other predecessors are None.", "quantifier": "all valid square graphs with any stored values, repeated entries and self-loops included, all start nodes, both values of directed", "why_tests_cant": "the code keeps an explicit stack, rescans the edges of a node after every child and stops early when all nodes are listed; tests compare a handful of graphs with known answers", "anchors": ["src/graph.rs: depth_first_order, depth_first_directed, depth_first_undirected"]}
{"id": "C95", "title": "printed matrices can be read back", "statement": "The text of to_string determines what the matrix stores. For scalars whose Display writes no line break and can be parsed back, a reader that takes one entry `(i, j) v` from every non-empty line gets from the text of a valid Coo, CSR or CSC matrix exactly its stored entries, in storage order; with the shape this rebuilds the Coo matrix exactly, and through Coo -> CSR / CSC the result of sum_duplicates, which is the original matrix when it was canonical. For a DoK matrix the reader gets one entry for every non-zero element whatever order the hash map enumerates. So two matrices of one format and shape with the same text store the same entries.", "quantifier": "all valid matrices of the four formats, every index type, every scalar type with a Display that can be parsed back, every enumeration order of the hash map", "why_tests_cant": "a test compares a few printed matrices with expected strings; that no two different matrices ever print alike (negative numbers, many digits, duplicates, explicit zeros, empty rows) is a statement about all pairs of matrices", "anchors": ["src/coo/coo.rs: Coo::to_string", "src/csr/csr.rs: CSR::to_string", "src/csc/csc.rs: CSC::to_string", "src/dok/dok.rs: DoK::to_string"]}
{"id": "C96", "title": "backward stability", "statement": "Computed results are exact results for slightly different matrices. Every finite element of a computed A x (CSR and CSC) is the exact element of P x, where P stores nothing where A stores nothing and each element of P differs from that of A by at most the fraction (1+u)^n - 1 of its size, n the number of entries of the row and u the unit round-off, up to underflow. Every finite element of a computed A B is the exact product of a row of A changed in this way with the column of B, and also of the row of A with a column of B changed in this way (the factor left alone storing no duplicates). Every finite element of A + B or A - B is the exact sum or difference of two elements changed by the fraction u (canonical operands), or (1+u)^k - 1 with duplicates.", "quantifier": "all valid matrices of matching shapes, all vectors, every arithmetic in which each operation has a relative error of at most u (and products an underflow error of at most eta), every finite result", "why_tests_cant": "backward stability is a statement about all matrices and the existence of a perturbed matrix; a test sees only the size of the error on a few inputs, and a loss of accuracy shows only on ill-conditioned ones", "anchors": ["src/row.rs: csr_matvec, csr_matmat, csr_binop", "src/col.rs: csc_matvec, csc_matmat, csc_binop", "src/csr/csr.rs: CSR::mat_vec, CSR::mat_mat, Add, Sub", "src/csc/csc.rs: CSC::mat_vec, CSC::mat_mat, CSC::add, CSC::subtract"]}
{"id": "C97", "title": "Sums and products fail only if the result itself does not fit the index type", "statement": "For valid matrices of matching shapes whose minor dimension the index type I can represent, `a + b`, `a - b` (and `CSC::add`, `CSC::subtract`) and `a * b` (`mat_mat`) return the result whenever I can count the non-zero elements of the RESULT, however many entries the operands store together and however many intermediate positions cancel; the result then stores exactly its non-zero elements. If I cannot count them, the operation panics, it never returns a wrong matrix. For sums and differences neither operand may store as many entries as the largest value of I (a witness shows that this condition is needed).", "quantifier": "all index types, all valid operands of all sizes and patterns (unsorted, with duplicates), all scalar values; overflow-checked builds", "why_tests_cant": "The border between success and overflow depends on the number of non-zeros after cancellation, for every pair of operands; tests near the limits of i8 or u8 try a few patterns, tests near the limits of i32 need gigabytes.", "anchors": ["src/csr/std_ops.rs: Add, Sub, Mul", "src/csr/csr.rs: CSR::mat_mat", "src/csc/csc.rs: CSC::add, CSC::subtract, CSC::mat_mat", "src/csc/std_ops.rs: Add, Mul", "src/row.rs: csr_binop_csr_csr, csr_binop_csr_canonical, csr_binop_csr_general, csr_matmat, csr_has_canonical_format"]}
{"id": "C98", "title": "assembling and selecting agree with block matrix algebra", "statement": "Stacking, composing and selecting go together with the other operations as blocks of matrices do. `[A B] * [C; D]` stores the entries of `A*C + B*D`; the product of two matrices composed of four blocks each stores the entries of the four block sums of products composed; `[A; B]` maps a vector to the two products one after the other, `[A B]` maps a concatenated vector to the sum of the products; the transpose of a horizontal stack is the vertical stack of the transposes (same arrays, same failures); rows and columns selected from a product or a sum are the product of the selected rows and columns, or the sum of the selections; selecting twice is selecting once through both index lists (same arrays); selecting the columns of a block out of `[A B]` gives back exactly the arrays of the block; the diagonal of a sum is the sum of the diagonals, and transposing keeps the diagonal. The laws of selections and of diagonals hold in the column format too.", "quantifier": "all shapes, patterns, block sizes and index lists (repeated and reordered indices included) of valid matrices whose sizes fit the index type, all semiring scalars", "why_tests_cant": "Each law relates several calls over all operands and all index lists; unit tests check single calls on fixed matrices and cannot show that two different routes agree on every input.", "anchors": ["src/coo/coo.rs: Coo::h_stack, Coo::v_stack, Coo::transpose, Coo::to_csr", "src/csr/csr.rs: CSR::h_stack, CSR::select, CSR::mat_vec, CSR::mat_mat, CSR::diagonal, CSR::transpose, CSR::sum_duplicates", "src/csc/csc.rs: CSC::compose, CSC::mat_mat", "src/csc/std_ops.rs: Add, Mul"]}
{"id": "C99", "title": "complex matrices obey the laws of complex matrix algebra", "statement": "The complex operations fit the other operations. `(A*B).h()` has the same arrays as `B.h() * A.h()`, `(A+B).h()` those of `A.h() + B.h()`. `A` and `A.h()` are adjoint: the inner product of `A x` with `y` is the inner product of `x` with `A.h() y`. `A * A.h()` is equal to its own conjugate transpose and its diagonal holds the real sums of the squared moduli of the rows. The real part of `A*B` is `re A * re B - im A * im B` and the imaginary part `re A * im B + im A * re B`, and likewise for `A x`.", "quantifier": "all shapes, patterns (repeated positions included) and values of valid complex matrices and vectors over a commutative ring whose sizes fit the index type", "why_tests_cant": "Each law relates several calls over all operands; the unit tests of the complex methods check one 3x3 matrix.", "anchors": ["src/csr/ccsr.rs: real, imag, conj, h", "src/csr/csr.rs: CSR::mat_vec, CSR::mat_mat, CSR::to_dense", "src/csr/std_ops.rs: Add, Sub, Mul", "src/csc/csc.rs: CSC::mat_vec, CSC::mat_mat, CSC::to_csr", "src/csc/std_ops.rs: Add, Mul"]}
{"id": "C100", "title": "the graph functions agree with each other", "statement": "The answer of `connected_components` for weak (or undirected) components depends on nothing but which nodes are joined by paths: index type, values, order, direction and repetition of the entries play no role. The nodes listed by the undirected `depth_first_order` are those with the weak label of the start; two nodes have the same strong label exactly if each is listed by the directed search from the other. Strong components lie within weak components, so there are at least as many; if every edge is stored both ways the classes and their number are the same. If every edge is stored both ways, `CSR::connected_components` puts the nodes that have edges into the same classes as the weak search, which counts every other node as one more component. Transposing the matrix leaves the weak answer as it is, leaves the classes and the number of strong components as they are, and turns `v is listed from u` into `u is listed from v`.", "quantifier": "all valid square matrices whose dimension fits the index type, all start nodes, all values; for strong components: at least one node and no repeated entry off the diagonal (C35), for the method: at least one edge (C36)", "why_tests_cant": "Each statement compares the answers of several searches over all graphs; a test compares a few.", "anchors": ["src/graph.rs: connected_components", "src/graph.rs: depth_first_order", "src/csr/csr.rs: CSR::connected_components", "src/row.rs: cs_graph_components", "src/csr/csr.rs: CSR::t", "src/csc/csc.rs: CSC::to_csr"]}
{"id": "C101", "title": "diagonal matrices, scaling, triangles, traces and selections as products", "statement": "The product of `with_diagonal(d)` and `A` is the matrix that `csr_scale_rows` makes of `A` with `d`, the product of `A` and `with_diagonal(d)` the one that `csr_scale_columns` makes. `diagonal` of `with_diagonal(d)` is `d` in all three formats, and the product of two diagonal matrices is diagonal with the products of the elements. The diagonals of `A * B` and `B * A` have the same sum. `upper(l)` of `upper(k)` holds the entries of `upper(max(k, l))`. Every matrix is, entry by entry, `upper(0)` plus the transpose of `upper(1)` of its transpose, and `upper(0)` keeps the diagonal. Choosing rows (columns) with `select` gives the product with the chosen rows (columns) of the identity from the left (right). Traces and products of diagonal matrices in the column format too.", "quantifier": "all valid matrices with fitting shapes, all diagonals, offsets and choices within the index type, all scalars that form a semiring (a commutative one for scaling rows and for traces)", "why_tests_cant": "Laws that relate separate kernels on all matrices; a test compares them on a few.", "anchors": ["src/row.rs: csr_scale_rows", "src/row.rs: csr_scale_columns", "src/csr/csr.rs: CSR::with_diagonal", "src/csr/csr.rs: CSR::diagonal", "src/csr/csr.rs: CSR::select", "src/csr/std_ops.rs: Mul for CSR", "src/coo/coo.rs: Coo::upper", "src/coo/coo.rs: Coo::diagonal", "src/csc/csc.rs: CSC::with_diagonal"]}
{"id": "C102", "title": "powers of a matrix, walks and graph searches", "statement": "Multiplying copies of a square CSR matrix (and the identity) with `*` in any order and bracketing gives the power of the denoted matrix with the number of copies as exponent, so two ways with the same number of copies (repeated squaring, one factor at a time) give the same dense matrix; multiplying a vector by the power gives the same as that many calls of `mat_vec`; the same for CSC matrices over commutative scalars. If all stored values are 1 and no position is stored twice, entry (i, j) of the k-th power is the number of walks with k edges from i to j. If all stored values are positive, it is non-zero exactly if there is such a walk; the directed `depth_first_order` from s lists exactly the nodes j for which one of the powers 0 to n-1 has a non-zero entry (s, j), and strong `connected_components` labels u and v alike exactly if powers with non-zero entries (u, v) and (v, u) exist (no repeated entries, at least one node).", "quantifier": "all valid square matrices with n*n below the largest index value, all programs of products, all semirings (ordered ones for the statements about positive values), all start nodes and pairs of nodes", "why_tests_cant": "Ranges over all graphs, all exponents and all bracketings, and compares matrix products with graph searches.", "anchors": ["src/csr/csr.rs: CSR::mat_mat", "src/csr/std_ops.rs: Mul for CSR", "src/csr/csr.rs: CSR::mat_vec", "src/csr/csr.rs: CSR::with_diagonal", "src/graph.rs: depth_first_order", "src/graph.rs: connected_components"]}
{"id": "C103", "title": "element-wise programs compute the element-wise expression", "statement": "A program of calls of the element-wise kernels (`csr_add_csr`, `csr_sub_csr`, `csr_mul_csr`, `csr_max_csr`, `csr_min_csr`) of any depth, each call with output arrays as long as the stored entries of its two operands, never fails and computes at every position the same expression of the entries there. Two programs whose expressions agree for numbers therefore store the same entries: commutativity, associativity, distributivity, the lattice laws, max + min = a + b, (a - b) + b = a and so on. The six comparisons are consistent: at each position stored in an operand exactly one of lt, eq and gt reports true, ne is lt or gt, le is lt or eq, ge is gt or eq, nothing is reported at other positions, and exchanging the operands exchanges lt with gt and le with ge. If no divisor is zero at a stored position, (a / b) * b and (a * b) / b store the entries of a.", "quantifier": "all expressions of the five kernels, all valid matrices of one shape (rows unsorted, repeated entries and stored zeros allowed) whose stored entries, counted as often as the operand occurs, are fewer than the largest index value; all linearly ordered rings (identities that need it: ordered commutative rings), fields for division", "why_tests_cant": "Ranges over all expressions and all stored patterns; each call takes one of two code paths depending on its operands.", "anchors": ["src/row.rs: csr_binop_csr_csr", "src/row.rs: csr_add_csr", "src/row.rs: csr_sub_csr", "src/row.rs: csr_mul_csr", "src/row.rs: csr_div_csr", "src/row.rs: csr_max_csr", "src/row.rs: csr_min_csr", "src/row.rs: csr_lt_csr", "src/row.rs: csr_ne_csr"]}
{"id": "C104", "title": "renumbering, selecting and joining graphs", "statement": "Selecting the same rows and columns of a square matrix with sorted duplicate-free rows renumbers the nodes of its graph, and the graph functions follow. For a permutation of the nodes, `connected_components` finds the same number of components of each kind, two new nodes have equal labels exactly if the nodes they were have, and `depth_first_order` lists the renumbered nodes. The nodes with one label, in any order, are a graph with one component. The nodes listed by decreasing strong label give a matrix with entries below the diagonal only inside components, upper triangular if every node is its own component; there are as many strong components as nodes exactly if no two nodes reach each other, in particular for upper triangular matrices. A graph composed of two graphs without edges between them has the components of the first, with their labels, followed by those of the second, numbered on.", "quantifier": "all valid square matrices with sorted duplicate-free rows whose sizes and stored entries the index type can hold; all permutations and all listings of a component; both directions and both kinds of connection; for the block diagonal, all valid square edge lists, repeated edges allowed", "why_tests_cant": "Ranges over all graphs and all permutations, and combines the selection, conversion and stacking code with three searches.", "anchors": ["src/csr/csr.rs: CSR::select", "src/graph.rs: connected_components", "src/graph.rs: depth_first_order", "src/coo/coo.rs: Coo::compose", "src/coo/coo.rs: Coo::to_csr"]}
{"id": "C105", "title": "the different ways to the same data agree", "statement": "`to_dense`, `mat_vec` of a unit vector (a column), `diagonal` and `get` after `sum_duplicates` report the same elements; `get` without `sum_duplicates` does where the row has no repeated entry. `csr_row_slice(start, stop, step)` is `csr_row_index` with the rows start, start + step, ... below stop. For a matrix with sorted duplicate-free rows, `get_csr_submatrix` leaves the arrays of the matrix that `select` makes for the rows and columns of the block, and `csr_column_index1` / `csr_column_index2` followed by `sort_indexes` gives the arrays of the `select` of the columns. `csr_matvecs` on several vectors gives in each column what `mat_vec` gives for that vector, gives the rows of the dense product with the sparse matrix made of the vectors, and is the same array as `csc_matvecs` on the matrix converted to CSC.", "quantifier": "all valid matrices (unsorted and with repeated entries where not stated otherwise), all positions, blocks, slices with positive step, column lists with any order and repetition, all numbers of vectors; sizes and entries within the index type; semiring scalars", "why_tests_cant": "Each pair of code paths is independent code; agreement must hold for every pattern and every argument.", "anchors": ["src/csr/csr.rs: CSR::to_dense", "src/csr/csr.rs: CSR::get", "src/csr/csr.rs: CSR::mat_vec", "src/csr/csr.rs: CSR::select", "src/row.rs: get_csr_submatrix", "src/row.rs: csr_row_slice", "src/row.rs: csr_row_index", "src/row.rs: csr_column_index1", "src/row.rs: csr_column_index2", "src/row.rs: csr_matvecs", "src/col.rs: csc_matvecs"]}
{"id": "C106", "title": "the Laplacian of a graph and its components", "statement": "For a symmetric matrix with positive stored values (positions may be stored several times), the Laplacian can be computed as with_diagonal(mat_vec(1)) - A without error. Its quadratic form is half the sum over all pairs of the weight times the squared difference. It maps a vector to zero exactly if the vector has a single value on each of the components reported by connected_components, and the dimension of its null space is the number of components reported.", "quantifier": "all valid square CSR matrices with symmetric elements and positive stored values, all vectors, every ordered field as scalars; the number of rows plus entries within the index type", "why_tests_cant": "Relates arithmetic on the values with the graph search for every graph and every vector.", "anchors": ["src/csr/csr.rs: CSR::mat_vec", "src/csr/csr.rs: CSR::with_diagonal", "src/csr/csr.rs: CSR - CSR", "src/graph.rs: connected_components"]}
{"id": "C107", "title": "assembling in a dictionary and as triplets gives the same matrix", "statement": "A sequence of (row, column, value) contributions added to a dictionary of keys, or pushed onto a coordinate matrix, gives the same elements; converted to CSR the dictionary gives the row pointers and entries of the coordinate result with its zeros eliminated, and converted to CSC the same elements. The order of the additions does not matter, subtracting the contributions again in any order restores every element, two dictionaries with the same elements hold the same entries, and building from a dense array through a dictionary gives exactly the arrays of CSR::from_dense and CSC::from_dense.", "quantifier": "all sequences of contributions inside the shape, in every order, every commutative additive monoid as scalars (a group for the subtraction); sizes within the index type", "why_tests_cant": "Ranges over every history of additions and every order of it.", "anchors": ["src/dok/dok.rs: DoK::new", "src/dok/dok.rs: DoK::add", "src/dok/dok.rs: DoK::sub", "src/dok/dok.rs: DoK::from_dense", "src/dok/dok.rs: DoK::to_csr", "src/dok/dok.rs: DoK::to_csc", "src/coo/coo.rs: Coo::push", "src/coo/coo.rs: Coo::to_csr", "src/coo/coo.rs: Coo::to_csc", "src/row.rs: csr_eliminate_zeros"]}
{"id": "C108", "title": "the two compressed formats mirror each other", "statement": "A program of methods that CSR and CSC both have (negation, +, *, sort_indexes, sum_duplicates, prune, select, conversion to the other format and back), run with the CSR methods and, with factors and index lists exchanged, with the CSC methods on the transposed matrices, returns transposes of each other with exactly the same arrays, or fails in both formats. A matrix and its transpose in the other format give the same nnz, has_sorted_indexes, has_canonical_format and diagonal, and (A x) . y = x . (transpose(A) y).", "quantifier": "all programs; all matrices that the constructors accept, valid or not; all index types, both build profiles, all scalar types (commutative semirings for the last law)", "why_tests_cant": "Ranges over every composition of the methods in two implementations, including invalid arrays and sizes that overflow the index type.", "anchors": ["src/csr/csr.rs: CSR::transpose", "src/csr/csr.rs: CSR::select", "src/csr/csr.rs: CSR::prune", "src/csr/csr.rs: CSR::sum_duplicates", "src/csc/csc.rs: CSC::select", "src/csc/csc.rs: CSC::prune", "src/csc/csc.rs: CSC::sum_duplicates", "src/csc/csc.rs: CSC::mat_mat", "src/csr/std_ops.rs", "src/csc/std_ops.rs"]}
{"id": "C109", "title": "nonnegative and stochastic matrices stay so", "statement": "If the entries of A are nonnegative and its rows sum to 1 (the transition matrix of a Markov chain), the same holds for products and mixtures p A + q B (p + q = 1) of such CSR matrices and for every power, in whatever order it is multiplied out; products store positive values only; transpose(A) x is a distribution if x is one; every component of A x lies between any bounds of the components of x; and after any number of steps all the weight of a chain started in s lies on the nodes that depth_first_order finds from s. +, * and the matrix-vector product preserve inequalities between nonnegative matrices entry by entry. CSC matrices with nonnegative entries whose columns sum to 1: their products are such matrices, and x, A x, A (A x), ... stay distributions.", "quantifier": "all valid matrices of fitting shapes, all orders of multiplication, all ordered semirings (exact arithmetic, for instance rationals), all index types", "why_tests_cant": "A sum of 1 and the absence of weight elsewhere after any number of steps are statements about all matrices and all numbers of factors.", "anchors": ["src/csr/csr.rs: CSR::mat_mat", "src/csr/csr.rs: CSR::mat_vec", "src/csc/csc.rs: CSC::mat_vec", "src/csr/std_ops.rs", "src/graph.rs: depth_first_order"]}
{"id": "C110", "title": "rounding errors of whole programs are bounded", "statement": "A program of sums, differences, products and scalar multiples of CSR matrices, run with floating-point scalars, returns a matrix each entry of which differs from the exact result of the same program by at most a bound that is computed from the exact data alone: the errors of the operands carried on plus the error of each operation; without underflow the bound is ((1 + u)^d - 1) times the result of the program for the absolute values, where d is the largest number of roundings on the way to a value. The same for a matrix-vector product at the end, and for programs of sums, products and multiples of CSC matrices (multiples through the transpose, C111).", "quantifier": "all programs, all valid matrices without duplicate positions, all floating-point arithmetics with a relative error of at most u (and an absolute one of at most eta in products), all index types that hold the numbers of cells", "why_tests_cant": "An error bound for every expression and every matrix cannot be sampled; errors of intermediate results are carried on in ways no single test shows.", "anchors": ["src/csr/std_ops.rs", "src/csr/csr.rs: CSR::mat_mat", "src/csr/csr.rs: CSR::mat_vec", "src/row.rs: csr_binop_csr_csr"]}
{"id": "C111", "title": "every wrong operation has a detour that is right", "statement": "For operations that are wrong or fail on some valid matrices there is a sequence of other calls that is right on all of them: a + (-b) for the CSC difference; transpose, multiply, transpose back for scalar multiples of CSC matrices; to_csc before to_coo for CSR matrices with unused storage; to_csc and to_csr before CSR::h_stack; CSC::add and CSC::subtract, which answer Err exactly if the shapes differ, for checked sums and differences of CSR matrices; sum_duplicates before get; to_csr of the triplets before the search for strong components of a graph with repeated edges. Whole programs of matrix operations in which CSC differences are written with CSC::subtract and scalar multiples of CSC matrices through the transpose are right without the exceptions of C50, C70, C76 and C77: exact if the sizes fit the index type, otherwise exact or a panic, for integer scalars too, and exact modulo 2^w in builds without overflow checks.", "quantifier": "all valid matrices (unused storage, duplicates, unsorted rows included) of fitting shapes whose numbers of stored entries stay below the largest index value, all scalars, all index types that hold the dimensions", "why_tests_cant": "That a detour is right whenever the direct call is not is a statement about all matrices, in particular those with unused storage that tests do not build.", "anchors": ["src/csc/std_ops.rs", "src/csc/csc.rs: CSC::transpose", "src/csc/csc.rs: CSC::to_coo", "src/csc/csc.rs: CSC::add", "src/csc/csc.rs: CSC::subtract", "src/csr/csr.rs: CSR::h_stack", "src/csr/csr.rs: CSR::to_csc", "src/csr/csr.rs: CSR::get", "src/csr/csr.rs: CSR::sum_duplicates", "src/coo/coo.rs: Coo::to_csr", "src/graph.rs: connected_components"]}
{"id": "C112", "title": "Where results store entries: fill-in and bands", "statement": "A program of matrix operations stores entries at most where the operands allow: a sum at the positions of its operands, a product at (i, k) only if some (i, j) is stored in the one factor and (j, k) in the other. So bands survive: if every stored entry of the operands lies between two diagonals, so does every stored entry of the result, where the bounds of a sum are those of both operands, the bounds of a product add up and those of a transpose are reversed; entries outside are zero. A banded result of +, - or * stores at most (width of the band) entries per row. The k-th power has k times the band. The product of upper triangular matrices is upper triangular and its diagonal is the product of the diagonals.", "quantifier": "All programs of the operations in the three formats within the size limits and without CSC - and CSC scaling (C18, C20), all bands (also asymmetric and empty ones), all matrices with repeated positions and stored zeros, all powers in every order of multiplication.", "why_tests_cant": "Tests multiply a few banded matrices; an entry outside the band, stored by an operation on some combination of cancelling values or unsorted rows, would be seen only on such a matrix.", "anchors": ["src/csr/csr.rs: CSR::mat_mat", "src/csr/std_ops.rs", "src/csr/csr.rs: CSR::with_diagonal", "src/row.rs: csr_matmat", "src/row.rs: csr_binop_csr", "src/csc/std_ops.rs", "src/coo/coo.rs: Coo::upper", "src/coo/coo.rs: Coo::transpose"]}
{"id": "C113", "title": "Symmetric results are symmetric to the last bit", "statement": "For scalars of which only the commutativity of the operation is assumed (floating-point and saturating numbers included, whose addition is not associative): A * A\u1d40 of a CSR matrix and A\u1d40 * A of a CSC matrix in canonical format, computed with transpose, the conversion back and *, store at (i, j) exactly the value stored at (j, i), and nothing if nothing is stored there; A + A\u1d40 of a square matrix does so whether or not it is in canonical format, and A - A\u1d40 (CSR) stores the negated values. Without the canonical format the product need not be symmetric, even if no position is stored twice.", "quantifier": "All matrices in canonical format for the products, all square matrices for the sums, all scalars with commuting operation, all index types that hold the sizes.", "why_tests_cant": "Rounding differences between (i, j) and (j, i) show up only for particular values in particular storage orders.", "anchors": ["src/csr/csr.rs: CSR::transpose", "src/csc/csc.rs: CSC::transpose", "src/csc/csc.rs: CSC::to_csr", "src/csr/csr.rs: CSR::to_csc", "src/row.rs: csr_matmat", "src/row.rs: csr_binop_csr", "src/csr/std_ops.rs", "src/csc/std_ops.rs"]}
{"id": "C114", "title": "The formats agree to the last bit", "statement": "For arbitrary scalars (floating-point and saturating numbers included): a CSR matrix with sorted rows and its conversion to CSC give the same product with a vector, bit for bit; any CSC matrix, its conversion to CSR and its triplets with the coordinate kernel do too. Sums and differences (with CSC::subtract) of CSR matrices in canonical format store the same values at the same positions as those of their conversions to CSC, and so do products if multiplication commutes. Sorting the second factor of a CSR product changes no bit of the result. A whole program of sums, differences, products and transposes of canonical matrices, with sort_indexes after every operator, ends with the same bits whether it runs in CSR format or, on the converted matrices, in CSC format. With an unsorted row the two products with a vector can differ.", "quantifier": "All valid matrices (sorted rows resp. canonical format for CSR operands, nothing for CSC), all vectors of fitting length, all scalars, all index types that hold the sizes.", "why_tests_cant": "Whether two formats add in the same order shows only for values for which the order matters.", "anchors": ["src/csr/csr.rs: CSR::mat_vec", "src/csc/csc.rs: CSC::mat_vec", "src/coord.rs: coo_matvec", "src/csr/csr.rs: CSR::to_csc", "src/csc/csc.rs: CSC::to_csr", "src/csc/csc.rs: CSC::to_coo", "src/csr/csr.rs: CSR::mat_mat", "src/csc/csc.rs: CSC::mat_mat", "src/csc/csc.rs: CSC::subtract", "src/csr/std_ops.rs", "src/csc/std_ops.rs"]}
