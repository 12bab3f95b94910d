# Formal model of rwl/sparsetools in Lean 4 — design

## 1. Layout

`/verif/lean/Verif/`

* `Base.lean` — the execution monad and the primitive Rust operations (indexing, writes, `to_usize().unwrap()`,
  `I::from(..).unwrap()`, checked arithmetic, `for`, `while`).
* `Model/*.lean` — the crate, function by function, in `do` notation with the same loops and the same mutable arrays as
  the Rust source. Every definition cites file and lines and names its simplifications.
* `Spec.lean`, `SpecGraph.lean`, `SpecExact.lean`, `SpecExpr.lean`, `SpecEigen.lean` — small specifications that do not use the
  model's functions: which matrix a set of arrays denotes (`entry`, `triples`, `valuesAt`), structural validity
  (`WF`), canonical format, reachability, expression semantics, the documented ARPACK argument conditions.
* `Model/Cost*.lean` — kernels and searches once more with a counter of steps; erasing the counter gives back the function of the other
  model files (`…T_outcome`). `Model/Usize.lean` — functions once more over machine words of a given width.
* `Lemmas/*.lean` — loop rules, list lemmas, exact characterisation of each kernel.
* `Props/*.lean` — the property theorems `Cnn_…`, each with an `example` showing that concrete, non-trivial data meets its
  hypotheses.

`/verif/properties.jsonl` is the list of properties, `/verif/MANIFEST.json` maps them to theorems, `/verif/seeded/LOG.jsonl`
records the seeded faults (section 6).

## 2. Execution model

`M α = Except Fault α`. `Fault.err` is an `Err(..)` value returned to the caller; `Fault.panic p` is a panic with its reason
(`oob` slice index, `unwrap` on `None`/`Err`, `arith` overflow or underflow, `assert`, `unreachable`), and
`Fault.panic .fuel` means that a `while` loop has not finished within its fuel. A theorem `f x = .ok r ∧ …` therefore includes
panic freedom and termination; statements about functions with `while` loops hold for every fuel above an explicit bound,
so the loop really ends, and non-termination is stated as "the fuel fault for every fuel".

* Slices and `Vec` are `List`; reads and writes are bounds checked (`List.rd`, `List.wr`).
* The index type `I: Integer` is a parameter. `IntTy` is its least and greatest value; `IdxTy` adds the build profile. Index values are `Int`.
  `+`, `-`, `+=` on `I` panic on overflow in a build with overflow checks and wrap around without them;
  `I::from(n).unwrap()` panics if `n` does not fit; `to_usize().unwrap()` panics on negative values. A plain `t : IntTy` passed to a function of
  the model stands for the build with overflow checks. C69 with `t' = t.unchecked` transfers every theorem `f t x = .ok r ∧ …` to builds
  without overflow checks; C71 shows what goes wrong there where the checked build panics. Arithmetic on `usize` panics on
  underflow in both (without checks it would wrap; no theorem claims anything about such a run except that the checked build panics).
* `usize` is `Nat`: subtraction panics below zero. The upper bound of `usize` and wrapping subtraction are modelled separately, for the functions that can
  reach it, in `Model/Usize.lean` (C83, C84).
* `isize` is `Int`. (The only `isize` values are the diagonal offset `k`, whose negation overflows for `isize::MIN`, where the model panics
  in the subtraction after it instead, and `i_root` of the depth-first searches, which stays between -1 and the number of nodes.)
* The scalar type `T` is an arbitrary Lean type with the operations a function uses. Rust's `==` on scalars is the boolean
  test `BEq`, not Lean equality.
  - Theorems about sums and products assume the laws they need (`AddCommMonoid`, `Semiring`, `Ring`, …): they cover
    ℤ, ℚ, ℝ, ℂ and wrap-around machine integers, and machine integers without overflow.
  - C53–C58, C61 and C66–C68 (and the pattern theorems C08, C25, C44, C60, …) assume **no law at all**. They state the exact sequence of
    scalar operations and hence hold for IEEE floats, including rounding, NaN and signed zeros.
* A hash map (`DoK`) is an association list without repeated keys; every function that enumerates it takes the enumeration as an
  arbitrary permutation argument.
* Methods that mutate `self` return the new structure. If they fail half way the model keeps no intermediate state; no
  theorem speaks about the state after a failure except DoK updates, which fail before the first write.
* Foreign or third-party code is a parameter: ARPACK (`dnaupd_c`, `dneupd_c`) is an arbitrary transition function over
  its reverse-communication state; the scalar formatter (Display, `pretty_dtoa`) is an arbitrary function; the tabwriter
  crate's column alignment is left out.

Proof method: `Ok m Q` ("m returns a value satisfying Q") and `WP m Q E` (with a postcondition for faults) have exact rules for
every primitive; loops are proved with invariant rules (`Ok_forRange`, `Ok_forOff`, `Ok_while` with a decreasing measure). Each kernel is
first characterised exactly in terms of the list of (column, value) pairs of each row (`Rep`, `rowOf`) without algebra; the matrix
statement is then derived from the list statement. CSC functions are instances of the CSR kernels on the transposed arrays, as in the
source.

## 3. Properties: what is modelled and how each is proved

`status` is that of MANIFEST.json. Theorem names are listed there; all are in namespace `Sparse`. `partial` always means that the
full English statement is *false* of the code (a theorem proves the negation) unless the last column says otherwise.

| id | property | status | modelled code | proof | theorems in |
|---|---|---|---|---|---|
| C01 | Coo::to_csr preserves the matrix and is canonical | proved | Coo::to_csr, coo_tocsr, sum_duplicates, sort_indexes, prune | counting-sort invariant, stable row sort, in-place compaction invariant | Boundary.lean, Convert.lean |
| C02 | Coo::to_csc preserves the matrix and is canonical | proved | Coo::to_csc and the same kernels | as C01 on the transposed triplets | Boundary.lean, Convert.lean |
| C03 | CSR::to_csc preserves the matrix, every stored entry and sorts row indexes | proved | csr_tocsc, CSR::to_csc | counting-sort invariant (bucket contents = filtered input) | Convert.lean |
| C04 | CSC::to_csr preserves the matrix and CSR->CSC->CSR is the identity on canonical matrices | proved | csc_tocsr, CSC::to_csr | as C03; round trip by extensionality of the row lists | Convert.lean |
| C05 | to_coo lists exactly the stored entries | partial | expandptr, csr_tocoo, CSR/CSC::to_coo | loop invariant; CSR with unused storage: exact behaviour and counterexample | Dense.lean, Leftover.lean |
| C06 | to_dense is the denoted matrix | proved | coo_todense, csr_todense, to_dense | accumulation invariant | Dense.lean |
| C07 | sum_duplicates canonicalises in place without changing the matrix | proved | csr_sum_duplicates, prune, sum_duplicates | invariant: write position ≤ read position, suffix untouched | Boundary.lean, Convert.lean |
| C08 | sort_indexes is a stable per-row sort of entries | proved | csr_sort_indices, sort_indexes | each row = stable merge sort of its pairs | Convert.lean |
| C09 | has_canonical_format decides strict sortedness | partial | csr_has_canonical_format | iff by invariant; overflow at a pointer equal to I::MAX is the counterexample | Convert.lean |
| C10 | has_sorted_indexes decides sortedness | partial | csr_has_sorted_indices | iff when the first row is non-empty, panic otherwise | Convert.lean |
| C11 | CSR mat_vec is the matrix-vector product | proved | csr_matvec, CSR::mat_vec | fold invariant, row sums | Dense.lean |
| C12 | CSC and COO mat_vec are the matrix-vector product | proved | csc_matvec, coo_matvec, CSC::mat_vec | scatter invariant, exchange of sums | Dense.lean |
| C13 | CSR mat_mat is the matrix product | proved | csr_matmat, csr_matmat_maxnnz, CSR::mat_mat | linked-list accumulator: chain invariant; the counting pass bounds the filling pass | Product.lean |
| C14 | CSC mat_mat is the matrix product | proved | csc_matmat, CSC::mat_mat, CSC * CSR | as C13 with exchanged operands | Product.lean |
| C15 | CSR + and - are matrix addition and subtraction | proved | csr_binop_csr (canonical and general), CSR + and - | merge recursion; chain invariant with two accumulators | Elementwise.lean |
| C16 | CSR + and - reject operands of different shape | partial | CSR + and - | counterexample and exact behaviour on differing shapes | Elementwise.lean, Shapes.lean |
| C17 | Element-wise binary operations | proved | csr_binop_csr for any op, named kernels | as C15 with op as parameter | Elementwise.lean |
| C18 | CSC::add and CSC::subtract | proved | CSC::add, CSC::sub, operator + | as C15, with prune | Elementwise.lean |
| C19 | CSC - operator is matrix subtraction | partial | CSC operator - | the arguments of CSC::new are exchanged: panic and counterexample | Elementwise.lean |
| C20 | Scalar multiplication | partial | Mul<T> for CSR and CSC, Complex64 * CSC | map over stored values; CSC arguments exchanged: counterexample | Basic.lean |
| C21 | Negation | proved | Neg for Coo, CSR, CSC | map over stored values | Basic.lean |
| C22 | select extracts rows and columns | proved | CSR/CSC::select, csr_select, csr_column_index*, csr_row_index | loop invariants, composition of the two index passes | Select.lean |
| C23 | get_csr_submatrix extracts a contiguous block | proved | get_csr_submatrix | filter invariant | Select.lean |
| C24 | diagonal extraction | proved | csr_diagonal, csc_diagonal, diagonal() | fold | Dense.lean |
| C25 | transpose | proved | transpose | re-reading of the same arrays | Basic.lean |
| C26 | h_stack / v_stack | partial | Coo::v_stack/h_stack/…3, CSR::h_stack | list append; CSR goes through to_coo (C05) | Assemble.lean, Leftover.lean |
| C27 | compose / compose3 assemble block matrices | partial | Coo::compose, compose3, CSC::compose | composition of stacks; accepted mismatches are the counterexample | Assemble.lean |
| C28 | upper triangle | proved | Coo::upper | filter; overflow of row + k | Assemble.lean |
| C29 | csr_eliminate_zeros | proved | csr_eliminate_zeros | compaction invariant | FromDense.lean |
| C30 | DoK behaves as a total function with zero default | proved | DoK::new/set/add/sub/get | refinement of a function from positions to values, over all histories | Dok.lean |
| C31 | DoK never stores zeros or out-of-range keys | proved | as C30, from_dense | invariant over all histories | Dok.lean |
| C32 | DoK conversions do not depend on HashMap iteration order | proved | DoK::to_csr/to_csc/to_dense | permutation invariance of the Coo path | Dok.lean |
| C33 | from_dense round trips | proved | from_dense of Coo, CSR, CSC, DoK | loop invariants | Dok.lean, FromDense.lean |
| C34 | undirected / weak connected components | proved | connected_components (undirected and weak), breadth-first search | visited set closed under edges; labels by first occurrence | Graph.lean |
| C35 | strongly connected components | partial | connected_components (strong), Pearce's algorithm on flat arrays | ghost depth-first state, stack and low-link invariants | Scc.lean, SccSafe.lean |
| C36 | CSR::connected_components / cs_graph_components | partial | cs_graph_components, CSR::connected_components | worklist invariant | Graph.lean |
| C37 | depth_first_order visits exactly the reachable nodes | proved | depth_first_order (directed/undirected) | stack invariant, reachability closure | Graph.lean |
| C38 | depth_first_order predecessors form a depth-first tree | proved | depth_first_order predecessors | parent invariant over the search history | Graph.lean |
| C39 | row and column scaling | proved | csr_scale_rows, csr_scale_columns | map | Dense.lean |
| C40 | multi-vector products | proved | csr_matvecs, csc_matvecs | block accumulation | Dense.lean |
| C41 | row slicing kernels | partial | csr_row_index, csr_row_slice | append loop; non-termination as fuel fault for every fuel | Select.lean |
| C42 | column indexing kernels | proved | csr_column_index1/2 | counting and offset invariants | Select.lean |
| C43 | csr_count_diagonals counts occupied diagonals | partial | csr_count_diagonals | mask invariant; underflow below the diagonal | Select.lean |
| C44 | constructors validate lengths | proved | Coo/CSR/CSC::new | case analysis | Basic.lean |
| C45 | CSR::get returns the matrix entry | partial | CSR::get | first match of a linear scan | Basic.lean |
| C46 | complex views | proved | complex views, h, conj, with_real, with_imag | map; h by transposition | Complex.lean |
| C47 | with_diagonal / identity / with_size | proved | with_diagonal, identity, with_size | direct | Basic.lean |
| C48 | Coo + Coo | proved | Add for Coo | append followed by C01 | Assemble.lean |
| C49 | textual output lists the stored entries | proved | to_string, to_table | recursion over lines | Text.lean |
| C50 | arbitrary compositions of matrix operations behave as matrix algebra | partial | expression trees over all of the above | induction over expressions with resource bounds | Expr.lean |
| C51 | eigs argument validation and result assembly | partial | eigs | guards, reverse-communication loop, result assembly; ARPACK arbitrary | Eigen.lean |
| C52 | arguments and buffers handed to the foreign eigensolver | partial | eigs | argument conditions as a predicate on every call in the trace | Eigen.lean |
| C53 | conversions keep every stored value, in order, whatever the scalars | proved | conversions, sort_indexes, transposes, csr_eliminate_zeros | per-position value lists (`valuesAt`) | Exact.lean |
| C54 | order in which duplicates are summed | proved | Coo conversions, sum_duplicates | `collapse` of value lists | Exact.lean |
| C55 | order of summation in dense conversion | proved | to_dense | `sumFrom` of value lists | Exact.lean |
| C56 | order of summation in matrix-vector products | proved | mat_vec, coo_matvec | left folds | Exact.lean |
| C57 | order of summation in matrix products | proved | mat_mat | chain invariant with the exact accumulated value | Exact.lean |
| C58 | values computed by element-wise operations | proved | csr_binop_csr, CSR/CSC + and - | merge and chain invariants with exact values | Exact.lean |
| C59 | display of complex numbers | partial | pretty_string of complex numbers | direct | Access.lean |
| C60 | mutable access to the stored values | proved | values_mut | re-reading of the same index arrays | Access.lean |
| C61 | all conversion paths between formats end in the same arrays | proved | all conversions | value lists and sortedness determine the arrays | Diagram.lean |
| C62 | the order of the triplets does not matter | proved | Coo::to_csr, to_csc | as C61 | Diagram.lean |
| C63 | uniqueness of the canonical form | proved | CSR + | a canonical row without zeros is determined by its entries | Diagram.lean |
| C64 | concurrent eigs calls are serialised at the library | proved | eigs as a program of atomic steps, the mutex, static variables of the library | invariant over all schedules | Threads.lean |
| C65 | the result of eigs does not depend on other threads | partial | as C64 | every thread simulates the sequential `eigs`; concrete library for the negation | Threads.lean |
| C66 | stacking, composing, selecting and construction move values unchanged, whatever the scalars | partial | as C22, C23, C26-C28, C33, C42, C48 | the same loop invariants, stated on lists of values per position instead of sums; no scalar laws used | Moves.lean |
| C67 | order of the sums in diagonal and in products with several vectors, whatever the scalars | proved | as C24, C40 | the loop invariants state the sum in order | Order.lean |
| C68 | value-by-value operations apply the operation to every stored value and do nothing else | proved | as C20, C21, C39, C46, C47 | values mapped one by one | Order.lean |
| C69 | the index type does not influence results | proved | every function with an index type parameter | relation between two runs of the same code, closed under bind, loops and checks (Lemmas/Widen.lean) | Widen.lean |
| C70 | no overflow goes unnoticed | partial | as C50 | C50 at a sufficiently wide type, transferred by C69 | Widen.lean |
| C71 | builds without overflow checks do not corrupt matrices | partial | as C50, with wrap-around index arithmetic | C69 between the two build profiles; concrete witnesses for the negation | Release.lean, Widen.lean |
| C72 | step-by-step construction of a coordinate matrix | proved | Coo::push, Coo::extend, with_size | induction over the list of calls, then C01, C02, C06 | Build.lean |
| C73 | indices outside the matrix are caught | partial | conversions, mat_vec, mat_mat, scaling on matrices with arbitrary minor indices | a call that returns has checked every index: loop invariants with outcome "all indices seen so far in range, or a panic" | Invalid.lean |
| C74 | a panic of the scalar type during an in-place call leaves a usable matrix | partial | sum_duplicates and the scaling kernels with scalar operations that may panic; a monad that keeps the borrowed state on a fault | Hoare rules with an exceptional postcondition on the state; the compaction invariant extended by the rows not yet processed; simulation with the total model | Crash.lean |
| C75 | integer scalars: the exact result or a panic | proved | every function that adds, subtracts, multiplies, divides or negates scalars, with operations that may panic (Model/Scalar.lean); integer types as instances | a relation "same outcome or overflow panic" between the code with panicking operations and with exact ones, closed under all control structures; loop invariants for the exact panic condition of mat_vec; division by choosing two extensions of the partial quotient | Scalar.lean |
| C76 | no overflow of integer scalars goes unnoticed in programs | partial | the expression language of C50 evaluated with panicking scalar operations | composition of C75 with C70 | Scalar.lean |
| C77 | integer scalars without overflow checks: exact modulo 2^w | partial | the expression language of C50 over bit vectors with wrap-around arithmetic | the ring homomorphism from the integers commutes with the meaning of expressions; C50, C71 | Wrap.lean |
| C78 | rounding errors are bounded | proved | abstract floating-point numbers with the standard error model (FloatLaws); the models of C54-C58 | induction on the order of summation proved in C54-C58, regrouping of the exact sums by column | Round.lean |
| C79 | index values never leave the index type | proved | every function that returns index arrays | a predicate on outcomes (Ret) closed under bind, loops and reads and writes of arrays, run over the code of each function (Lemmas/Typed.lean) | Typed.lean |
| C80 | running times of the kernels | proved | the kernels once more in a monad that counts steps (Model/Cost.lean) | the outcome is that of the model of the other properties (equal after erasing the counter); an upper bound on steps for any outcome, composed along the code; loop bounds summed over rows by the pointer differences | Cost.lean |
| C81 | running time of the matrix product | partial | csr_matmat and csr_matmat_maxnnz with a counter | as C80, each row costs at most K^2 rounds and the linked list has at most as many elements; counterexample family by a lower bound on the steps of the same code | Cost.lean |
| C82 | running time of the search for strong components | partial | connected_components_directed with a counter | the termination measure of C35 generalised to weights: each visit of a node costs a constant plus its degree, each node is visited at most twice | Cost.lean |
| C83 | the machine word does not influence results | proved | the functions with usize arithmetic once more, over a machine word of any width, checked or wrapping (Model/Usize.lean) | each bounded operation equals the unbounded one on the states that occur; the row counter of the product by an invariant on the mask (the counter is the number of marked columns) | Usize.lean, UsizeCsc.lean |
| C84 | no overflow of the machine word goes unnoticed | partial | as C83 | refinement: what the bounded function returns the unbounded one returns, composed along the code; counterexamples by evaluation | Usize.lean, UsizeCsc.lean |
| C85 | Running time of the graph searches | partial | the searches of graph.rs with a counter (Model/CostGraph.lean) | the invariants of C34, C36 and C37 with the steps so far: each node is taken from the stack once (weak components), pushed or popped at most 2V times (depth first), each component costs one search for its first node; lower bounds on the star and on self-loops from the same invariants | CostGraph.lean |
| C86 | changing the scalars commutes with every program | proved | every function of the model that takes scalars, run on two scalar types side by side (Lemmas/Param*.lean); programs with bare operations (SpecParam.lean) | relational induction: both runs make the same steps and keep related states, one lemma per function, assembled by a tactic; the relation of a scalar and its image makes the outcomes equal; the complex numbers of num_complex over a commutative ring as a ring | Param.lean |
| C87 | structure depends on structure only | proved | as C86 with the relation that holds between any two scalars | as C86: without a test for zero nothing depends on the relation; the graph functions use the index arrays of the matrix and of its transpose only | Param.lean |
| C88 | running times of conversions, scaling, format tests and in-place operations | proved | the remaining kernels with a counter (Model/CostMore.lean) | credits: every step pays one, an invariant on the credits left is carried through the loops; in-place kernels keep the pointers of the rows not yet visited | CostMore.lean |
| C89 | running time of element-wise operations | proved | csr_binop_csr and both its paths with a counter | as C88; the length of the linked list is bounded by the entries of the row, each round of the merge consumes an entry | CostMore.lean |
| C90 | running times of the selection of rows, columns and blocks | proved | the selection kernels with a counter | as C88; the number of copied entries is bounded by the counting pass, and by the length of the result in the second pass of the column selection | CostMore.lean |
| C91 | histories of in-place calls | proved | sequences of calls as a fold in the panic monad over the modelled operations | one specification step per call on the list of slices (insertion sort, insertion with addition), equal to the model by uniqueness of sorted rows with given values per index; then induction on the history | History.lean |
| C92 | running times of the public methods | proved | the methods of CSR, CSC and Coo with a counter, allocation and cloning included (Model/CostMat.lean, Model/CostCoo.lean) | bounds of the kernels (C80, C88 to C90) added up; lengths and pointers of intermediate arrays from the kernels or from their functional correctness; the row sort with credits | CostCoo.lean, CostMat.lean |
| C93 | laws of matrix algebra | proved | as C13 to C15, C18, C25, C50 | uniqueness of the canonical form (C63) applied to the results, whose entries are those of matrix algebra and which store no zeros; transposes by comparing the computations step by step | Laws.lean, LawsCsc.lean |
| C94 | depth_first_order is the recursive depth-first search | proved | as C37, C38 | what remains to be searched from the nodes on the stack, as a big-step relation, is part of the loop invariant; rescanning a node is harmless because visited neighbours are skipped; sorting and repetition of the transposed graph by thinning of neighbour lists | Search.lean |
| C95 | printed matrices can be read back | proved | the to_string methods of Model/Text.lean; a line parser readText in the specification | join/split of lines, decimal digits contain none of the separators, then the conversions of C53/C61 (Props/ReadBack.lean) | ReadBack.lean |
| C96 | backward stability | proved | as for C78; a specification Near of an element changed by a fraction of its size | the componentwise error bounds of C78; an error within a componentwise bound can be spread over the components (Props/Backward.lean) | Backward.lean |
| C97 | Sums and products fail only if the result itself does not fit the index type | proved | `nonzeros m n f`, the number of non-zero elements of a matrix; a type wide enough for the sufficient conditions of C13-C18 | Sharp versions of the kernel lemmas, with hypotheses about the result only (Lemmas/Capacity.lean), show that the kernels at the narrow type return; by the widening framework (C69) they return what they return at the wide type, where C13-C18 apply. Conversely a returned matrix would have its number of entries as last pointer (C79). | Capacity.lean |
| C98 | assembling and selecting agree with block matrix algebra | proved | no new model; `SameStored` of C93 and the specifications `hcat`, `vcat`, `chosen` | Both routes are computed by the theorems about the single calls; results that store each position once and no zeros are determined by their entries (C63), results with exact storage by their values per position. | Blocks.lean, ColumnLaws.lean |
| C99 | complex matrices obey the laws of complex matrix algebra | proved | no new model; `Cx` with the product of `num_complex` | The h laws follow from the transpose laws (C93) and the fact that conjugation commutes with every program (C86), the others from the entries of the results (C11, C12, C13, C15, C46). | ComplexLaws.lean |
| C100 | the graph functions agree with each other | proved | no new model | The weak labelling is the numbering of the classes by first members, which is unique; numbers of labels are numbers of first members of classes, compared as finite sets; the rest follows from C34 to C37 and the positions kept by the conversions (C53). | GraphLaws.lean |
| C101 | diagonal matrices, scaling, triangles, traces and selections as products | proved | no new model | From the entries of the results (products, C22, C24, C25, C28, C39, C47): sums with one non-zero summand, exchange of sums, filters of filters. | ColumnLaws.lean, DiagLaws.lean |
| C102 | powers of a matrix, walks and graph searches | proved | no new model; a small language of products (`PowProg`) run with the modelled operations | Induction on the program to the power of a Mathlib matrix; walks counted by their last edge; a shortest walk repeats no node; then C35 and C37. | ColumnLaws.lean, Powers.lean |
| C103 | element-wise programs compute the element-wise expression | proved | no new model; a language of expressions (`ElemExpr`) run with the modelled kernels, and callers that allocate the output arrays | Induction on the expression with C17; two results with the same entries, no repeated position and no stored zero store the same. | ElementLaws.lean |
| C104 | renumbering, selecting and joining graphs | proved | no new model | `select` with distinct nodes stores the entries between them; a path of the selected graph is a path of the graph and, if the selection is closed under the paths, conversely; the labels are determined by the relation (numbering in order of first nodes) or its classes are counted. | Relabel.lean |
| C105 | the different ways to the same data agree | proved | no new model | each pair of functions through its specification (C06, C11, C22-C24, C40-C42, C45); equal arrays by the uniqueness of sorted storage without unused places; the column kernels keep the lengths of their outputs. | ColumnLaws.lean, Ways.lean |
| C106 | the Laplacian of a graph and its components | proved | no new model | elements of the computed Laplacian by C11, C47, C15; the quadratic form is a sum of nonnegative terms, which vanish exactly on differences along edges; null space = functions of the component label (C34), so its dimension is the number of labels. | Laplacian.lean |
| C107 | assembling in a dictionary and as triplets gives the same matrix | proved | no new model | induction on the list of contributions gives the element as the gathered sum; the dictionary invariant (C27) excludes stored zeros, and canonical matrices with equal elements and no stored zeros are equal. | Gather.lean |
| C108 | the two compressed formats mirror each other | proved | no new model; a small language of programs run in both formats | each method maps transposes to transposes (same kernel calls, the checks of the constructors hold of every result); induction on the program. | Mirror.lean |
| C109 | nonnegative and stochastic matrices stay so | proved | no new model | the entries of products, sums and powers from C13, C15, C20, C102 and sums exchanged; nonzero entries of a power give a path, hence a node found by the search (C37). | ColumnLaws.lean, Markov.lean |
| C110 | rounding errors of whole programs are bounded | proved | no new model; a small language of programs, run with the crate operators and with exact numbers | induction on the program from the bounds of single operations (C78): triangle inequality, magnitudes of computed values bounded by exact magnitude plus error. | RoundProg.lean, RoundProgCsc.lean |
| C111 | every wrong operation has a detour that is right | proved | no new model | composition of the theorems about the single calls; the conversions drop unused storage, which makes the hypotheses of the partial theorems hold. | DetourProg.lean, Detours.lean |
| C112 | Where results store entries: fill-in and bands | proved | Programs of C50; the band of a program by recursion on it. | The positions carried by the invariant of C50 are compared with the band by induction on the program; the size by counting distinct columns of a row in an interval; powers by induction on the product. | Band.lean |
| C113 | Symmetric results are symmetric to the last bit | proved | CSR/CSC transpose, conversions, products and sums over scalars without laws (C53, C57, C58). | The list of products added for (i, j) is the list added for (j, i): the common indices of two strictly increasing lists, by induction on both lists. A matrix over saturating numbers is the counterexample for unsorted rows. | Symmetric.lean |
| C114 | The formats agree to the last bit | proved | Conversions, products and sums over scalars without laws (C53, C56, C57, C58). | A sorted row is the concatenation over the columns of the values stored there, by induction on the columns, so that both formats add the same list; programs by induction on the program, with the invariant that both results are canonical and store the same values; common indices of two strictly increasing lists as in C113. A matrix over saturating numbers is the counterexample for unsorted rows. | SameBits.lean, SameBitsProg.lean |

## 4. Trusted base

* Lean's kernel (4.33.0). No axioms beyond `propext`, `Classical.choice`, `Quot.sound`; no `sorry`, `native_decide`, `bv_decide`,
  `implemented_by`, `unsafe`. Mathlib is used for definitions and lemmas only.
* The reading of the Rust source recorded in the comments of `Model/`.
* The definitions in `Base.lean` (meaning of the Rust primitives) and `Spec*.lean` (meaning of the properties).

Modelled: every non-test function of `/repo/src`: `coord.rs`, `row.rs`, `col.rs`, `graph.rs`, `coo/`, `csr/`, `csc/`, `dok/`,
`eigen/real.rs` (sequentially and as a program run by several threads), the display functions, the complex views and the operator implementations. `t()` and `with_capacity` are named in the comments of
`transpose` and `with_size`. Field accessors are the structure fields. The reference, value and mixed variants generated by
the `opimps` macros share one definition each.

Not modelled: failure of allocations below `isize::MAX` bytes; panics
inside a scalar operation, except in C74 (state after a caught panic in the in-place calls) and C75, C76 (outcome of every function for integer scalars, checked overflow and
division by zero; C77 without overflow checks): elsewhere scalar operations are total functions; the
meaning of IEEE operations (they are arbitrary operations; in C78 operations with the error bounds of `FloatLaws`); the tabwriter crate's alignment; the number formatting of
`pretty_dtoa`; ARPACK itself (a parameter, with arbitrary static variables); weak memory effects (the static variables are
only touched while the mutex is held, C64) and the fairness of the scheduler and of `std::sync::Mutex`; the `Deref` of DoK to its hash map (it hands out a shared reference only); the tests and examples of the crate;
`csr_hstack`, which is commented out in the source.

## 5. Where the code and the expected property disagree

Each line is backed by a theorem (the negation or the exact behaviour) and the positive part is proved as `_partial` or under the stated condition.

1. `has_sorted_indexes` panics whenever the first row (column) is empty (C10).
2. CSC `-` passes pointer and index arrays to `CSC::new` in the wrong order (C19); `CSC * scalar` and `Complex64 * CSC` likewise (C20).
3. `csr_row_slice` with step 0 and start > stop never returns (C41).
4. `csr_count_diagonals` underflows on any entry below the diagonal (C43).
5. `CSR::get` returns the first stored duplicate, not the sum (C45).
6. `CSR::connected_components` returns `Err` for a graph with nodes but no edges (C36).
7. `connected_components` with `Strong` panics for zero nodes and for some graphs with a repeated entry in a row, and for
   other graphs with a repeated entry returns a wrong count and wrong labels without any sign of it
   (`C35_duplicate_edge_wrong`: pushing the node on top of the stack again links it to itself, C35).
8. `depth_first_order` panics if the start node is not in the graph (C37_bad_start_panics).
9. CSR `+` and `-` do not compare shapes (C16).
10. `CSR::to_coo` emits the unused storage of the arrays as entries (C05); `CSR::h_stack` inherits it (C26).
11. `has_canonical_format` overflows when a row starts at position `I::MAX` (C09).
12. `CSR/CSC::from_dense` panic on an empty slice (C33_from_dense_empty).
13. `select` panics if a dimension is not representable in the index type (C22_select_dim_panics); DoK updates likewise (C30_dok_dim_panics).
14. `csr_diagonal` panics on offsets outside the matrix (C24_diagonal_out_of_range).
15. The comparison kernels `eq`, `le`, `ge` report false where neither operand stores anything (C17_eq_unstored).
16. `eigs`: the imaginary parts of the eigenvalues are copies of the real parts; real eigenvectors are constant; n = 0
    panics; nev = 0 is accepted; product requests at offsets other than the last third of the work array panic; `dneupd` gets a leading dimension one larger than
    the rows allocated (C51, C52).
17. Complex numbers with negative imaginary part are printed with two signs (C59).
18. `compose` accepts blocks of mismatching widths if the totals agree (C27).
19. `Coo::upper` panics if row + k overflows (C28_upper_overflow).
20. The two code paths of `csr_binop_csr` differ on scalars with a negative zero (C58_paths_differ).
21. `eigs` gives up the mutex between the reverse-communication calls of one computation, so two concurrent computations
    interfere if the library keeps static variables between calls (C65).
22. In a build without overflow checks (the default release profile) index arithmetic wraps silently: `v_stack` moves entries to wrong rows, `upper` keeps
    entries below the diagonal, and `+` on CSR matrices that are not canonical loses a row with exactly I::MAX + 1 entries (C71_counterexample);
    a product with more than I::MAX entries loses rows (C71_mat_mat_counterexample); `has_sorted_indexes` compares entries of different rows after an
    empty first row if the index type is unsigned (C71_has_sorted_counterexample). Conversions from coordinate format do not have this problem: `I::from(nnz).unwrap()` guards them (C71_coo_conversions_partial).
23. No constructor checks index values, and `Coo::extend` does not compare the lengths of its slices. Most calls panic on an
    index outside the matrix (C73), but `Coo::to_csr` copies a bad column index, CSR `+` accepts it, the flat kernel
    `coo_todense` writes to another position, and after an `extend` with fewer values than indices later values move to
    wrong positions (C73_counterexample).
24. If a scalar addition panics in the middle of `sum_duplicates` and the panic is caught, the matrix is valid but the row
    being processed can contain a value of an already merged row a second time, so its entries change (C74_counterexample).
25. Element-wise division of integer matrices panics whenever a position stored in one of the operands has no non-zero
    divisor, so also for every entry of the dividend at a position where the divisor stores nothing (C75_div_by_zero).
26. The documented running time of `csr_matmat` (row.rs:358, K the maximum number of entries in a row of A and column of B) is wrong; it
    holds with rows of B (C81_documented_bound_false, C81_product_time_partial). The documented storage of the search for strong components, two
    integer arrays of V elements (graph.rs:145), is three arrays in the code (`labels`, `ss`, `stack_b`).
27. In a build without overflow checks `usize` arithmetic wraps silently: `v_stack` and `h_stack` return matrices with a wrapped dimension and entries
    outside it, `CSR::with_size(usize::MAX, c)` returns a matrix without row pointers, `csr_row_slice` with a large step goes backwards, `coo_todense`
    writes to a wrong position of a short array, `csr_diagonal` with an offset outside the matrix returns zeros (C84_*_counterexample). With
    overflow checks all of these panic. `Coo::upper` panics on every matrix with so many columns that a vector with one element per column cannot exist
    (coo.rs:338, capacity `nnz/2 + cols`), although the result has at most `nnz` elements.
28. `depth_first_order` is not linear (C85): after each child the edges of a node are scanned again from the first one, so a node with `K` edges costs
    `K²` steps. `CSR::connected_components` looks for the first node of each component from node `0` on, so `k` components cost `k²` steps.
29. `eigs` computes the length of `workl` in `usize` and casts it with `as i32` (eigen/real.rs:71-93). From a basis of 26754 vectors on, the length passed to
    ARPACK is negative although the array itself is large enough, and a library that checks it returns error -7 (C52_large_basis_fails).
30. `Coo::to_csr`, `Coo::to_csc` and `sum_duplicates` panic at the largest index value (C01, C02, C07): with exactly `I::MAX` entries, in order already, and an
    empty last row (column), the check `has_canonical_format` adds one to a pointer equal to `I::MAX`. The same entries in any other order convert, and then a
    second `sum_duplicates` panics (`C07_second_call_panics`).


## 6. Seeded faults

For each entry of `seeded/LOG.jsonl` one definition of the model was edited in a scratch copy the way a realistic bug would change the
program, the project was rebuilt, and the theorems that no longer compile were recorded. Where every theorem still compiled although a claim was
false of the edited program the theorem was tightened; the entry names it.

## 7. The crate's own tests on the model

`Verif/Conformance.lean` replays the 27 unit tests of the crate (src/coo/coo_test.rs, src/csr/csr_test.rs, src/csr/ccsr_test.rs, src/graph.rs:622-701)
and its 2 documentation examples (graph.rs:40-59, 432-451) on the model, with index type `usize` as in the tests. The code cannot be run here, so
the tests are the only record of its actual behaviour. They are checks of the model, not proofs of any claim; the kernel evaluates each of them.

## 8. Axioms

### Axioms of each theorem named in MANIFEST.json (output of `#print axioms`)

* **no axioms** (4): `C30_dok_new`, `C83_stack`, `C83_compose`, `C94_search_unique`
* **propext** (17): `C13_csr_mat_mat_err`, `C14_csc_mat_mat_err`, `C18_csc_shape_err`, `C20_csc_scalar_panics`, `C33_from_dense_empty`, `C35_no_nodes_panics`, `C36_nonsquare`, `C51_eigs_values_counterexample`, `C51_eigs_vector_counterexample`, `C51_eigs_zero_nev_accepted`, `C59_pretty_complex_partial`, `C65_counterexample`, `C84_stack_counterexample`, `C84_with_size_counterexample`, `C84_row_slice_counterexample`, `C84_todense_counterexample`, `C84_diagonal_counterexample`
* **propext, Quot.sound** (94): `C05_csr_to_coo_counterexample`, `C09_has_canonical_overflow`, `C16_counterexample`, `C17_eq_unstored`, `C19_csc_sub_counterexample`, `C20_csc_scalar_counterexample`, `C21_coo_neg`, `C24_diagonal_out_of_range`, `C26_csr_h_stack_counterexample`, `C27_coo_compose_counterexample`, `C28_upper`, `C28_upper_overflow`, `C30_dok_updates`, `C30_dok_dim_panics`, `C34_nonsquare`, `C35_duplicate_edge_panics`, `C37_nonsquare`, `C37_bad_start_panics`, `C44_csr_new`, `C44_csc_new`, `C45_csr_get_counterexample`, `C47_with_diagonal_too_big`, `C51_eigs_rejects`, `C51_eigs_empty_panics`, `C52_large_basis_fails`, `C52_zero_nev_counterexample`, `C52_neupd_counterexample`, `C64_mutual_exclusion`, `C64_never_poisoned`, `C64_calls_atomic`, `C65_outcome_sequential`, `C65_isolated_partial`, `C71_has_sorted_counterexample`, `C72_history`, `C73_counterexample`, `C74_csr_total`, `C74_csc_total`, `C75_kernels`, `C75_dok`, `C75_expressions`, `C79_csr`, `C79_csc`, `C79_coo`, `C79_dok`, `C79_kernels`, `C79_components`, `C79_expressions`, `C80_coo_tocsr`, `C80_coo_matvec`, `C80_csr_tocsc`, `C80_csr_matvec`, `C80_csc_matvec`, `C80_csr_diagonal`, `C80_expandptr`, `C83_with_size`, `C83_upper`, `C83_from_dense`, `C83_row_slice`, `C83_stack3`, `C84_empty_graph`, `C84_stack_wraps`, `C84_csr_h_stack_counterexample`, `C86_programs`, `C86_observers`, `C87_programs`, `C88_csr_scale_rows`, `C88_csr_scale_columns`, `C88_csr_todense`, `C88_coo_todense`, `C88_csr_tocoo`, `C88_csr_eliminate_zeros`, `C88_csr_matvecs`, `C88_csc_matvecs`, `C89_csr_binop_csr_canonical`, `C90_csr_row_index`, `C90_csr_column_index1`, `C92_coo_stack`, `C92_coo_compose`, `C92_coo_upper_diagonal`, `C92_with_diagonal`, `C92_coo_from_dense`, `C92_from_dense`, `C92_csr_mat_vec`, `C92_csr_to_dense`, `C92_csr_get`, `C92_csr_neg`, `C92_csr_mul_scalar`, `C92_csr_to_coo`, `C92_csr_diagonal`, `C92_csr_transpose`, `C92_csc_diagonal`, `C92_csc_transpose`, `C92_coo_to_dense`, `C92_coo_transpose`
* **propext, Classical.choice, Quot.sound** (499): `C01_coo_to_csr_exact`, `C01_coo_to_csr`, `C02_coo_to_csc_exact`, `C02_coo_to_csc`, `C03_csr_to_csc`, `C04_csc_to_csr`, `C04_csc_tocsr_kernel`, `C04_roundtrip`, `C05_csc_to_coo`, `C05_csr_to_coo_partial`, `C05_csr_to_coo_slack`, `C05_csr_to_coo_leftover`, `C05_csr_to_coo_uneven`, `C06_coo_to_dense`, `C06_csr_to_dense`, `C06_csr_todense_kernel`, `C06_csc_to_dense`, `C06_coo_todense_kernel`, `C07_csr_exact`, `C07_csc_exact`, `C07_second_call_panics`, `C07_csr_sum_duplicates`, `C07_csc_sum_duplicates`, `C08_csr_sort_indexes`, `C08_csc_sort_indexes`, `C09_csr_has_canonical_partial`, `C09_csc_has_canonical_partial`, `C09_csr_has_canonical_boundary`, `C09_csc_has_canonical_boundary`, `C10_csr_has_sorted_partial`, `C10_csr_has_sorted_panics`, `C10_csc_has_sorted_partial`, `C10_csc_has_sorted_panics`, `C11_csr_mat_vec`, `C11_csr_mul_vec`, `C11_csr_matvec_kernel`, `C12_csc_mat_vec`, `C12_csc_mul_vec`, `C12_csc_matvec_kernel`, `C12_coo_matvec_kernel`, `C13_csr_mat_mat`, `C13_slots_le`, `C14_csc_mat_mat`, `C14_csc_mul_csr`, `C14_slots_le`, `C15_csr_add`, `C15_csr_sub`, `C16_fewer_rows_partial`, `C16_add_dropped_rows`, `C16_sub_dropped_rows`, `C16_wider_canonical`, `C16_wider_fails`, `C17_binop`, `C17_paths_agree`, `C17_mul`, `C17_div`, `C17_add`, `C17_sub`, `C17_max_min`, `C17_strict`, `C17_weak`, `C18_csc_add`, `C18_csc_subtract`, `C18_csc_add_op`, `C19_csc_sub_panics`, `C20_csr_mul_scalar`, `C20_csr_scalar_mul`, `C21_csr_neg`, `C21_csc_neg`, `C22_csr_select`, `C22_csr_select_err`, `C22_csc_select`, `C22_csc_select_err`, `C22_select_dim_panics`, `C22_pick_le`, `C23_submatrix`, `C24_csr_diagonal`, `C24_csc_diagonal`, `C24_coo_diagonal`, `C24_csr_diagonal_kernel`, `C24_csc_diagonal_kernel`, `C25_csr_transpose`, `C25_csc_transpose`, `C25_coo_transpose`, `C26_v_stack`, `C26_h_stack`, `C26_v_stack3`, `C26_h_stack3`, `C26_csr_h_stack_partial`, `C26_csr_h_stack_leftover`, `C26_csr_h_stack_uneven`, `C27_coo_compose`, `C27_coo_compose_err`, `C27_coo_compose_own_widths`, `C27_coo_compose3`, `C27_coo_compose3_err`, `C27_csc_compose`, `C27_csc_compose_err`, `C29_eliminate_zeros`, `C31_dok_invariant`, `C32_dok_conversions`, `C33_dok_from_dense`, `C33_csr_from_dense`, `C33_csc_from_dense`, `C33_coo_from_dense`, `C34_undirected_components`, `C35_strong_components_partial`, `C35_after_sum_duplicates`, `C35_duplicate_edge_wrong`, `C35_always_in_bounds`, `C36_csr_components_partial`, `C36_any_pattern`, `C36_no_edges_error`, `C37_depth_first_nodes`, `C38_depth_first_tree`, `C39_csr_scale_rows`, `C39_csr_scale_columns`, `C40_csr_matvecs`, `C40_csc_matvecs`, `C41_row_index`, `C41_row_slice_partial`, `C41_row_slice_diverges`, `C42_column_index`, `C43_count_diagonals_partial`, `C43_below_panics`, `C44_coo_new`, `C45_csr_get_first`, `C45_csr_get_partial`, `C45_csr_get_canonical_partial`, `C45_csr_get_out_of_range`, `C46_csr_views`, `C46_csc_views`, `C46_coo_views`, `C46_real_plus_imag`, `C47_csr_with_diagonal`, `C47_csc_with_diagonal`, `C47_coo_with_diagonal`, `C47_coo_identity`, `C47_with_size`, `C48_coo_add`, `C49_coo_to_string`, `C49_csr_to_string`, `C49_csc_to_string`, `C49_dok_to_string`, `C49_csr_table`, `C49_csr_to_table`, `C50_compositions_partial`, `C50_observed_partial`, `C50_mat_vec_partial`, `C50_agree_partial`, `C50_csc_counterexample`, `C51_eigs_request_panics`, `C51_eigs_product`, `C51_eigs_result_partial`, `C52_naupd_preconditions`, `C53_csr_to_csc`, `C53_csc_to_csr`, `C53_csc_to_coo`, `C53_csr_to_coo`, `C53_csr_sort_indexes`, `C53_csc_sort_indexes`, `C53_transpose`, `C53_eliminate_zeros`, `C54_coo_to_csr`, `C54_coo_to_csc`, `C54_csr_sum_duplicates`, `C54_csc_sum_duplicates`, `C55_to_dense`, `C56_csr_mat_vec`, `C56_csc_mat_vec`, `C56_coo_matvec`, `C57_csr_mat_mat`, `C57_csc_mat_mat`, `C58_binop`, `C58_csr_add_sub`, `C58_csc_add_subtract`, `C58_paths_differ`, `C59_pretty_complex_counterexample`, `C60_csr_values_mut`, `C60_csc_values_mut`, `C60_coo_values_mut`, `C61_coo_csr_csc`, `C61_coo_csc_csr`, `C61_coo_transpose`, `C61_csr_coo`, `C61_csc_coo`, `C61_double_convert_sorts`, `C62_coo_order`, `C62_coo_order_nodup`, `C63_unique`, `C63_add_comm`, `C63_add_assoc`, `C64_no_deadlock`, `C65_completes_partial`, `C66_v_stack`, `C66_h_stack`, `C66_stack3`, `C66_coo_compose`, `C66_coo_compose3`, `C66_csc_compose`, `C66_csr_h_stack_partial`, `C66_coo_add`, `C66_upper`, `C66_csr_select`, `C66_csc_select`, `C66_submatrix`, `C66_column_index`, `C66_from_dense`, `C67_csr_diagonal`, `C67_csc_diagonal`, `C67_coo_diagonal`, `C67_diagonal_kernels`, `C67_csr_matvecs`, `C67_csc_matvecs`, `C68_csr_scalar`, `C68_neg`, `C68_complex`, `C68_scale`, `C68_with_diagonal`, `C68_identity`, `C69_coo`, `C69_csr`, `C69_csc`, `C69_dok`, `C69_graph`, `C69_expressions`, `C70_right_or_overflow_partial`, `C70_observed_partial`, `C70_csc_counterexample`, `C71_coo_conversions_partial`, `C71_sum_duplicates_partial`, `C71_mat_mat_counterexample`, `C71_same_partial`, `C71_compositions_partial`, `C71_counterexample`, `C72_build`, `C73_csr_partial`, `C73_csc_partial`, `C73_coo_to_dense_partial`, `C73_coo_conversions_partial`, `C73_coo_matvec_partial`, `C74_csr_sum_duplicates_partial`, `C74_csc_sum_duplicates_partial`, `C74_csr_scale_rows`, `C74_csr_scale_columns`, `C74_counterexample`, `C75_mat_vec`, `C75_csr_mat_mat`, `C75_csc_mat_mat`, `C75_csr_add_sub`, `C75_csc_add_subtract`, `C75_conversions`, `C75_dense_diagonal`, `C75_csr_scale_neg`, `C75_mat_vec_returns_iff`, `C75_mat_vec_bounded`, `C75_mul_vec_flat_dense`, `C75_div_by_zero`, `C75_div`, `C76_compositions_partial`, `C76_fitting_compositions_partial`, `C76_observed_partial`, `C76_csc_counterexample`, `C77_signed_partial`, `C77_unsigned_partial`, `C77_representable_partial`, `C77_mat_vec`, `C77_csc_counterexample`, `C78_csr_mat_vec`, `C78_csc_mat_vec`, `C78_csr_mat_mat`, `C78_csc_mat_mat`, `C78_csr_add_sub`, `C78_csc_add_subtract`, `C78_duplicates`, `C78_to_dense`, `C78_csr_scale`, `C81_product_time_partial`, `C81_documented_bound_false`, `C82_strong_components_time_partial`, `C83_new`, `C83_product`, `C83_to_csr`, `C83_diagonal`, `C83_todense`, `C83_matvecs`, `C83_strong_components`, `C83_csc_new`, `C83_transpose`, `C83_csc_product`, `C83_to_csc`, `C83_convert`, `C83_compose3`, `C83_csr_h_stack`, `C83_csc_compose`, `C84_checked`, `C84_checked_values`, `C84_release_partial`, `C84_product_positions`, `C84_count_diagonals`, `C84_checked_blocks`, `C84_columns`, `C85_weak_components_time`, `C85_depth_first_time_partial`, `C85_depth_first_not_linear`, `C85_csr_components_time_partial`, `C85_csr_components_not_linear`, `C86_rings`, `C86_conj`, `C86_real`, `C87_graph`, `C88_csr_has_sorted_indices`, `C88_csr_has_canonical_format`, `C88_csr_sum_duplicates`, `C89_csr_binop_csr_general`, `C89_csr_binop_csr`, `C90_csr_select`, `C90_get_csr_submatrix`, `C90_csr_column_index2`, `C91_csr_history`, `C91_csc_history`, `C91_csr_no_writes`, `C91_csc_no_writes`, `C92_csr_h_stack`, `C92_csc_compose`, `C92_csr_has_canonical_format`, `C92_csr_has_sorted_indexes`, `C92_csr_sort_indexes`, `C92_csr_sum_duplicates`, `C92_csr_to_csc`, `C92_csr_mat_mat`, `C92_csr_select`, `C92_csr_add`, `C92_csr_sub`, `C92_csc_mat_vec`, `C92_csc_has_canonical_format`, `C92_csc_has_sorted_indexes`, `C92_csc_sort_indexes`, `C92_csc_sum_duplicates`, `C92_csc_to_csr`, `C92_csc_to_dense`, `C92_csc_to_coo`, `C92_csc_mat_mat`, `C92_csc_select`, `C92_csc_add`, `C92_coo_to_csr`, `C92_coo_to_csc`, `C92_coo_add`, `C93_mul_assoc`, `C93_mul_add`, `C93_add_mul`, `C93_mul_sub`, `C93_sub_mul`, `C93_add_comm_assoc`, `C93_cancel`, `C93_neutral`, `C93_csc_mul_assoc`, `C93_csc_distrib`, `C93_csc_add_comm_assoc`, `C93_scale_mul`, `C93_transpose_mul`, `C93_transpose_add`, `C93_vectors`, `C93_programs`, `C93_csc_programs`, `C93_mixed_programs`, `C94_depth_first_order`, `C95_coo`, `C95_csr`, `C95_csc`, `C95_dok`, `C95_injective`, `C96_csr_mat_vec`, `C96_csc_mat_vec`, `C96_csr_mat_mat`, `C96_csc_mat_mat`, `C96_csr_add_sub`, `C96_csc_add_subtract`, `C97_csr_add`, `C97_csr_sub`, `C97_csc_add`, `C97_csc_subtract`, `C97_csc_add_op`, `C97_csr_mat_mat`, `C97_csc_mat_mat`, `C97_full_operand`, `C98_select_mul`, `C98_stack_mul`, `C98_stack_vec`, `C98_transpose_stack`, `C98_unstack`, `C98_compose_mul`, `C98_select_add`, `C98_select_select`, `C98_diagonal`, `C98_csc_select_mul`, `C98_csc_select_add`, `C98_csc_select_select`, `C98_csc_diagonal`, `C99_h_mul_add`, `C99_adjoint`, `C99_gram`, `C99_parts`, `C100_weak_determined`, `C100_search_weak`, `C100_search_strong`, `C100_strong_weak`, `C100_method_weak`, `C100_reversed`, `C101_csc_trace`, `C101_csc_diagonal_mul`, `C101_scaling`, `C101_diagonal_roundtrip`, `C101_diagonal_mul`, `C101_trace`, `C101_upper_upper`, `C101_split`, `C101_select_product`, `C102_csc_power`, `C102_csc_apply`, `C102_power`, `C102_order`, `C102_apply`, `C102_walks`, `C102_support`, `C102_search`, `C102_strong`, `C103_elementwise`, `C103_identities`, `C103_laws`, `C103_comparisons`, `C103_division`, `C104_relabel`, `C104_component`, `C104_block_triangular`, `C104_acyclic`, `C104_block_diagonal`, `C105_csc_read`, `C105_read`, `C105_row_slice`, `C105_submatrix`, `C105_columns`, `C105_matvecs`, `C106_laplacian`, `C106_nullity`, `C107_content`, `C107_assembly`, `C107_order`, `C107_undo`, `C107_from_dense`, `C108_programs`, `C108_observations`, `C108_adjoint`, `C109_csc_product`, `C109_csc_step`, `C109_csc_chain`, `C109_monotone`, `C109_product`, `C109_step`, `C109_average`, `C109_mixture`, `C109_power`, `C109_reached`, `C110_bound`, `C110_relative`, `C110_apply`, `C110_csc_bound`, `C110_csc_relative`, `C111_programs`, `C111_overflow`, `C111_integers`, `C111_wrapping`, `C111_csc_difference`, `C111_csc_scalar`, `C111_to_coo`, `C111_h_stack`, `C111_checked_sum`, `C111_get`, `C111_components`, `C112_fill_in`, `C112_band`, `C112_csr_size`, `C112_csc_size`, `C112_power`, `C112_triangular`, `C113_csr_gram`, `C113_csr_sum`, `C113_csr_difference`, `C113_csc_gram`, `C113_csc_sum`, `C113_unsorted_not_symmetric`, `C114_csr_mat_vec`, `C114_csc_mat_vec`, `C114_coo_mat_vec`, `C114_mat_mat`, `C114_add_sub`, `C114_sorted_factor`, `C114_unsorted_differs`, `C114_programs`
