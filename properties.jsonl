{"id": "C01", "title": "Permutation parity is the sign of the permutation", "statement": "calculate_permutation_parity(lst) returns +1 for every even and -1 for every odd permutation of 0..n-1, and composing permutations multiplies the results. Every phase of every CI coefficient, QP2 determinant and lineup permutation rests on it.", "quantifier": "every n and every permutation of 0..n-1", "why_tests_cant": "n! inputs per length and unbounded length; a test samples a few", "anchors": ["ccpy/utilities/permutations.py:calculate_permutation_parity", "ccpy/utilities/determinants.py:calculate_permutation_parity"]}
{"id": "C02", "title": "Lineup permutation puts two determinants in maximum coincidence with correct signs", "statement": "do_lineup_permutation(f1,f2) returns rearrangements of f1 and f2 that agree on a common prefix, whose remainders share no orbital, together with the signs of the two rearrangements applied to the sorted lists.", "quantifier": "every pair of duplicate-free orbital lists of any length", "why_tests_cant": "unbounded pairs of lists", "anchors": ["ccpy/utilities/permutations.py:do_lineup_permutation"]}
{"id": "C03", "title": "Excitation extraction between two determinants is exact", "statement": "get_excits_from/get_excits_to return exactly the orbitals only in the reference / only in the determinant; replacing the first by the second turns the reference into the determinant, get_excit_rank equals the number of either for equal electron counts, get_spincase labels the excitation by its alpha/beta content or raises when spin is not conserved, and get_number_difference is the symmetric difference size.", "quantifier": "every pair of occupied-orbital lists", "why_tests_cant": "unbounded pairs of lists", "anchors": ["ccpy/utilities/determinants.py:get_excit_rank", "ccpy/utilities/determinants.py:get_excits_from", "ccpy/utilities/determinants.py:get_excits_to", "ccpy/utilities/determinants.py:get_spincase"]}
{"id": "C04", "title": "CI coefficients get the phase of the excitation operator acting on the reference", "statement": "When parse_ci_wavefunction reads a determinant in alternating alpha-beta order, the stored amplitude is coefficient/c_ref times the true sign relating that determinant to the normal-ordered excitation operator (particles ascending, holes descending) acting on the reference determinant, for all spin cases through quadruples.", "quantifier": "every reference size, every excitation rank and every choice of hole and particle spin-orbitals", "why_tests_cant": "the sign depends on the number of electrons, spin case and orbital positions jointly; the code itself says 'not sure why this is' about its sign fix", "anchors": ["ccpy/extcorr/external_correction.py:parse_ci_wavefunction"]}
{"id": "C05", "title": "Inserting a CI amplitude keeps the tensor antisymmetric and stores the value", "statement": "insert_ci_amplitude stores the coefficient at the given excitation, stores signed copies at every permutation of like-spin indices, touches nothing else, and maps antisymmetric tensors to antisymmetric tensors.", "quantifier": "every tensor, excitation and spin case through triples", "why_tests_cant": "36 index permutations by unbounded index values", "anchors": ["ccpy/extcorr/external_correction.py:insert_ci_amplitude"]}
{"id": "C06", "title": "System electron and orbital counts are consistent", "statement": "For consistent input (electrons, multiplicity, frozen and deleted orbitals) System has noccupied_alpha+noccupied_beta correlated electrons, noccupied_alpha-noccupied_beta = multiplicity-1, occupied+unoccupied = correlated orbitals for each spin; the default occupation list sums to the electron count.", "quantifier": "every electron count, multiplicity, frozen-core and deleted-orbital count", "why_tests_cant": "unbounded integers with truncating division", "anchors": ["ccpy/models/system.py:System.__init__", "ccpy/models/system.py:UHFSystem.__init__"]}
{"id": "C07", "title": "Active-space sizes partition the orbital spaces", "statement": "After set_active_space(nact_occupied, nact_unoccupied), core+active = occupied and active+virtual = unoccupied for both spins.", "quantifier": "every system and every requested active space", "why_tests_cant": "unbounded integers; the beta-virtual line only misbehaves for open shells", "anchors": ["ccpy/models/system.py:System.set_active_space", "ccpy/models/system.py:UHFSystem.set_active_space"]}
{"id": "C08", "title": "Irrep tables form abelian groups under the bitwise product", "statement": "For each supported point group the irrep numbering is a bijection onto 0..2^k-1 with the totally symmetric irrep at 0 and the XOR product is closed, associative, commutative, self-inverse; the sym_table labels agree with the numbering.", "quantifier": "every supported point group and all pairs and triples of irreps", "why_tests_cant": "finite but the claim is for every pair/triple and for every product over a determinant", "anchors": ["ccpy/utilities/symmetry.py:get_pg_irreps", "ccpy/utilities/symmetry.py:sym_table"]}
{"id": "C09", "title": "Reference symmetry of a determinant is the XOR of its occupied orbital irreps", "statement": "The reference symmetry assigned by System is totally symmetric for every closed-shell occupation and otherwise is the product of the singly occupied orbitals' irreps.", "quantifier": "every orbital-symmetry list and default occupation", "why_tests_cant": "unbounded orbital lists", "anchors": ["ccpy/models/system.py:System.__init__"]}
{"id": "C10", "title": "Amplitude vectors round-trip through flatten and unflatten", "statement": "For cluster, Fock-space and spin-flip operators, flatten returns a vector of length ndim and unflatten(flatten()) restores every component, and flatten after unflatten(v) returns v: no solver ever mixes spin cases or loses amplitudes.", "quantifier": "every system, order, P-space/active layout and every amplitude content", "why_tests_cant": "unbounded dimensions; offset errors appear only for particular layouts", "anchors": ["ccpy/models/operators.py:ClusterOperator", "ccpy/models/operators.py:FockOperator", "ccpy/models/operators.py:SpinFlipOperator", "ccpy/models/operators.py:ActiveOperator"]}
{"id": "C11", "title": "Extending the P space keeps old amplitudes and the vector length", "statement": "extend_pspace_t3_operator keeps every existing amplitude in place, appends zeros for the new ones, and leaves ndim equal to the total number of amplitudes.", "quantifier": "every operator and every growth sequence", "why_tests_cant": "histories of growth steps", "anchors": ["ccpy/models/operators.py:ClusterOperator.extend_pspace_t3_operator"]}
{"id": "C12", "title": "Active-space triples lists contain exactly the allowed triples, once each", "statement": "get_active_triples_pspace lists, for each spin case, exactly the ordered triples with at least num_active active holes and particles and the target symmetry, without duplicates, 1-based.", "quantifier": "every system, active space, num_active and irrep", "why_tests_cant": "unbounded orbital counts", "anchors": ["ccpy/utilities/pspace.py:get_active_triples_pspace", "ccpy/utilities/pspace.py:get_full_pspace", "ccpy/utilities/active_space.py:active_hole", "ccpy/utilities/active_space.py:active_particle"]}
{"id": "C13", "title": "P and Q spaces partition the triples", "statement": "get_triples_qspace returns exactly the symmetry-allowed ordered triples that are not in the given P-space list; P and Q are disjoint and together exhaust all symmetry-allowed triples, so CC(P;Q) counts each triple exactly once.", "quantifier": "every P-space list (including the empty placeholder) and system", "why_tests_cant": "unbounded lists", "anchors": ["ccpy/utilities/qspace.py:get_triples_qspace", "ccpy/utilities/qspace.py:get_active_triples_qspace"]}
{"id": "C14", "title": "The empty-list placeholder row is never a real excitation", "statement": "The row of ones that stands for an empty list is never a valid triple (3p-2h, 3h-2p, 4p-2h) produced by any list generator, so testing the first row decides emptiness for generated lists.", "quantifier": "every generated list", "why_tests_cant": "unbounded lists", "anchors": ["ccpy/utilities/pspace.py:get_empty_pspace", "ccpy/utilities/pspace.py:get_active_triples_pspace", "ccpy/utilities/qspace.py:get_triples_qspace"]}
{"id": "C15", "title": "3p2h, 3h2p and 4p2h active lists are exact", "statement": "get_active_3p2h_pspace, get_active_3h2p_pspace and get_active_4p2h_pspace list exactly the ordered excitations with at least num_active active particles (holes for 3h2p) and the target symmetry, once each.", "quantifier": "every system, active space, num_active and irrep", "why_tests_cant": "unbounded orbital counts", "anchors": ["ccpy/utilities/pspace.py:get_active_3p2h_pspace", "ccpy/utilities/pspace.py:get_active_3h2p_pspace", "ccpy/utilities/pspace.py:get_active_4p2h_pspace"]}
{"id": "C16", "title": "Symmetry-resolved excitation counts add up", "statement": "count_singles/doubles/triples per irrep sum to the total number of spin-conserving excitations given by binomial coefficients, and the count for one irrep equals the length of the symmetry-adapted list.", "quantifier": "every system and orbital symmetry assignment", "why_tests_cant": "unbounded orbital counts and labelings", "anchors": ["ccpy/utilities/symmetry.py:count_singles", "ccpy/utilities/symmetry.py:count_doubles", "ccpy/utilities/symmetry.py:count_triples"]}
{"id": "C17", "title": "P-space growth adds exactly the selected triples", "statement": "add_spinorbital_triples_to_pspace keeps every old row, appends each selected triple once in its spin case (and its spin mirror with RHF), skips unset rows, drops the placeholder exactly when something is added, and the per-symmetry counters grow by exactly the number of added rows.", "quantifier": "every selected list, P space, system and RHF flag; every history of growth steps", "why_tests_cant": "unbounded lists and histories", "anchors": ["ccpy/utilities/selection.py:add_spinorbital_triples_to_pspace"]}
{"id": "C18", "title": "Moment-based selection returns the largest corrections", "statement": "calc_ccp3_with_selection / calc_ccp3_2ba_with_selection return the num_add triples of largest |moment| above the threshold.", "quantifier": "every stream of moments, num_add, buffer factor and threshold", "why_tests_cant": "depends on arrival order and buffer overflow timing", "anchors": ["ccpy/lib/fortran/ccp3_adaptive_loops.f90:ccp3a_2ba_with_selection_opt", "ccpy/moments/ccp3.py:calc_ccp3_2ba_with_selection"]}
{"id": "C19", "title": "Adaptive growth schedule adds up to the whole space", "statement": "In the percentage scheme the increments up to 100% add up to all symmetry-allowed triples (minus the starting fraction), and with RHF halving never exceed it.", "quantifier": "every triples count and every percentage schedule ending at 100", "why_tests_cant": "unbounded schedules; rounding only shows for particular counts", "anchors": ["ccpy/drivers/adaptive.py:AdaptDriver.excitation_count"]}
{"id": "C20", "title": "Adaptive macro-iteration loop terminates with consistent bookkeeping", "statement": "The adaptive CC(P;Q) loop stops after at most the configured number of macro-iterations, stops early exactly when the energy change is below tolerance or the determinant cap is reached, the P space only grows, and the last macro-iteration performs no selection.", "quantifier": "every energy sequence, tolerance, cap and schedule", "why_tests_cant": "unbounded histories", "anchors": ["ccpy/drivers/adaptive.py:AdaptDriver.run"]}
{"id": "C21", "title": "DIIS history holds the most recent vectors whenever it extrapolates", "statement": "Whenever the solver extrapolates, the DIIS buffer holds exactly the last diis_size amplitude/residual pairs, never an uninitialised slot.", "quantifier": "every iteration count and buffer size", "why_tests_cant": "unbounded histories", "anchors": ["ccpy/drivers/diis.py:DIIS.push", "ccpy/drivers/diis.py:DIIS.extrapolate", "ccpy/drivers/solvers.py:cc_jacobi"]}
{"id": "C22", "title": "DIIS weights solve the constrained least-squares system", "statement": "solve_gauss returns the exact solution of the linear system whenever no pivot vanishes; the extrapolated vector is then an affine combination with weights summing to one that minimises the residual norm; a converged (constant) history is reproduced.", "quantifier": "every history of residuals", "why_tests_cant": "real-valued inputs; division by a zero pivot occurs only for special histories", "anchors": ["ccpy/drivers/diis.py:DIIS.extrapolate", "ccpy/drivers/diis.py:DIIS.solve_gauss"]}
{"id": "C23", "title": "The CC solver reports convergence truthfully", "statement": "cc_jacobi returns is_converged=True iff in its last iteration both the residual norm and energy change were below tolerance, within the iteration limit; then the returned energy is the energy of the returned amplitudes.", "quantifier": "every update function, start, tolerances and iteration limit", "why_tests_cant": "unbounded iteration histories", "anchors": ["ccpy/drivers/solvers.py:cc_jacobi", "ccpy/drivers/solvers.py:eccc_jacobi", "ccpy/drivers/solvers.py:left_cc_jacobi", "ccpy/drivers/solvers.py:lrcc_jacobi"]}
{"id": "C24", "title": "Davidson projected matrix matches the subspace", "statement": "In eomcc_davidson the small matrix diagonalised in each iteration equals the overlaps of all current basis vectors with their current sigma vectors, also after restarts.", "quantifier": "every linear operator, start vector and number of iterations/restarts", "why_tests_cant": "histories with restarts", "anchors": ["ccpy/drivers/solvers.py:eomcc_davidson"]}
{"id": "C25", "title": "Block Davidson stays within its workspace and reports non-convergence", "statement": "eomcc_block_davidson never writes outside its preallocated subspace and returns is_converged=False for roots that do not converge within maximum_iterations.", "quantifier": "every number of roots and convergence history", "why_tests_cant": "unbounded histories", "anchors": ["ccpy/drivers/solvers.py:eomcc_block_davidson"]}
{"id": "C26", "title": "Gram-Schmidt produces an orthonormal basis of the same span", "statement": "gramschmidt(A) returns columns that are orthonormal and span the same nested subspaces for linearly independent input.", "quantifier": "every real matrix with independent columns", "why_tests_cant": "real-valued inputs of any size", "anchors": ["ccpy/utilities/utilities.py:gramschmidt"]}
{"id": "C27", "title": "Two-electron integrals are antisymmetrised correctly", "statement": "build_v gives like-spin integrals antisymmetric in both index pairs and keeps electron-exchange symmetry, and the opposite-spin block is the bare integral.", "quantifier": "every two-electron integral tensor", "why_tests_cant": "real tensors of any size", "anchors": ["ccpy/models/integrals.py:build_v"]}
{"id": "C28", "title": "Sorted integral blocks partition the full tensor", "statement": "SortedIntegral stores every element of the full one- and two-body matrices in exactly one occupied/virtual block and the blocks reconstruct the matrix.", "quantifier": "every matrix and occupied/unoccupied partition", "why_tests_cant": "any sizes", "anchors": ["ccpy/models/integrals.py:SortedIntegral"]}
{"id": "C29", "title": "Reference energy and Fock matrix agree", "statement": "calc_hf_energy equals one-body plus half two-body contributions and equals the energy recomputed from the Fock matrix (sum of Fock diagonals minus the double-counted interaction); frozen-core plus valence energy equals the total.", "quantifier": "every integral set and electron count", "why_tests_cant": "real tensors of any size", "anchors": ["ccpy/energy/hf_energy.py:calc_hf_energy", "ccpy/energy/hf_energy.py:calc_hf_frozen_core_energy", "ccpy/models/integrals.py:build_f"]}
{"id": "C30", "title": "Cholesky and conventional Hamiltonians agree for exact factors", "statement": "If e2int = sum_x R_x R_x, the Cholesky Fock matrix, integral blocks and HF energy equal those from the conventional path.", "quantifier": "every set of Cholesky vectors and integrals", "why_tests_cant": "real tensors of any size", "anchors": ["ccpy/models/integrals.py:getCholeskyHamiltonian", "ccpy/models/integrals.py:build_f_chol", "ccpy/energy/hf_energy.py:calc_hf_energy_chol", "ccpy/cholesky/cholesky_builders.py"]}
{"id": "C31", "title": "Pivoted Cholesky reproduces the matrix on processed pivots and tracks its error", "statement": "After m steps R^T R agrees with the matrix on all m pivot rows, the tracked diagonal is the diagonal of A - R^T R, no pivot is used twice, no division by zero happens for positive semidefinite input, and full rank reproduces A exactly.", "quantifier": "every symmetric (positive semidefinite) matrix, rank limit and tolerance", "why_tests_cant": "real matrices of any size", "anchors": ["ccpy/cholesky/cholesky.py:pivoted_chol"]}
{"id": "C32", "title": "FCIDUMP integrals are loaded with full permutational symmetry", "statement": "load_integrals_from_fcidump returns a symmetric one-body matrix and 8-fold symmetric two-body tensor, with the file's value at each listed index quadruple; orbital-energy lines do not disturb them.", "quantifier": "every FCIDUMP content", "why_tests_cant": "unbounded files", "anchors": ["ccpy/interfaces/fcidump_tools.py:load_integrals_from_fcidump"]}
{"id": "C33", "title": "Integral dump and load are inverse", "statement": "Loading onebody.inp/twobody.inp files written by dumpIntegralstoPGFiles yields back the same one-body matrix, the same two-body tensor (in the documented index order) and the nuclear repulsion.", "quantifier": "every symmetric integral set", "why_tests_cant": "any size", "anchors": ["ccpy/utilities/dumping.py:dumpIntegralstoPGFiles", "ccpy/interfaces/gamess_tools.py:load_integrals_from_gamess"]}
{"id": "C34", "title": "P-space amplitudes unravel to the antisymmetric tensor they represent", "statement": "unravel_triples_amplitudes builds a fully antisymmetric tensor which at every listed triple has the listed amplitude and is zero on all triples outside the list.", "quantifier": "every duplicate-free list of triples and amplitudes", "why_tests_cant": "unbounded lists", "anchors": ["ccpy/utilities/utilities.py:unravel_triples_amplitudes", "ccpy/utilities/utilities.py:unravel_3p2h_amplitudes", "ccpy/utilities/utilities.py:unravel_3h2p_amplitudes"]}
{"id": "C35", "title": "Left-right overlaps agree between packed and full storage", "statement": "get_LR with full antisymmetric tensors (1/4, 1/36 factors) equals the sum over unique excitations, and hence equals the P-space dot product when both represent the same amplitudes.", "quantifier": "every pair of antisymmetric amplitude tensors", "why_tests_cant": "real tensors of any size", "anchors": ["ccpy/energy/cc_energy.py:get_LR"]}
{"id": "C36", "title": "One-particle density traces to the electron number", "statement": "calc_rdm1 gives alpha and beta density matrices whose traces are the numbers of alpha and beta electrons, for all T and L, with and without triples.", "quantifier": "every T and L amplitudes", "why_tests_cant": "real tensors of any size", "anchors": ["ccpy/density/rdm1.py:calc_rdm1"]}
{"id": "C37", "title": "State-specific density matrices are stored per state", "statement": "After run_rdm1(states), the density stored for state i is the one computed from state i's left vector, for each requested state.", "quantifier": "every number of states and request list", "why_tests_cant": "aliasing appears only with two or more states", "anchors": ["ccpy/drivers/driver.py:Driver.__init__", "ccpy/drivers/driver.py:Driver.run_rdm1"]}
{"id": "C38", "title": "Merge argsort sorts", "statement": "The Fortran argsort used by all P-space kernels returns a permutation that orders the keys ascending (descending for the moment variant).", "quantifier": "every key array of any length", "why_tests_cant": "unbounded arrays", "anchors": ["ccpy/lib/fortran/ccsdt_p_loops.f90:argsort", "ccpy/lib/fortran/ccp3_adaptive_loops.f90:argsort_r8_descend"]}
{"id": "C39", "title": "Sorting P-space triples into blocks addresses every triple exactly once", "statement": "get_index_table numbers the ordered index tuples 1..nloc bijectively; sort4/sort3 reorder excitations, amplitudes and residuals by one permutation and the recorded start/end range of each index is exactly the set of rows having that index.", "quantifier": "every P-space list, sorting pattern and orbital sizes", "why_tests_cant": "unbounded lists; edge cases are lists of one row", "anchors": ["ccpy/lib/fortran/ccsdt_p_loops.f90:get_index_table", "ccpy/lib/fortran/ccsdt_p_loops.f90:sort4", "ccpy/lib/fortran/ccp3_adaptive_loops.f90:sort3"]}
{"id": "C40", "title": "Reordering amplitudes to another list keeps amplitude-excitation pairs", "statement": "reorder_amplitudes brings L3 amplitudes into the order of the T3 list without changing which amplitude belongs to which excitation.", "quantifier": "every duplicate-free list and every permutation of it", "why_tests_cant": "n! orders", "anchors": ["ccpy/lib/fortran/reorder.f90:reorder_amplitudes", "ccpy/utilities/utilities.py:reorder_triples_amplitudes"]}
{"id": "C41", "title": "Stride-based tensor reordering is the index permutation", "statement": "reorder_stripe(A, perm) writes every element of B exactly once with B[i_perm(1),...,i_perm(n)] = A[i_1,...,i_n]; sum_stripe adds the same; permute_array and inverse_permute_array are inverse.", "quantifier": "every rank, shape and permutation", "why_tests_cant": "unbounded ranks and shapes", "anchors": ["ccpy/lib/fortran/reorder.f90:reorder_stripe", "ccpy/lib/fortran/reorder.f90:sum_stripe", "ccpy/lib/fortran/reorder.f90:permute_array", "ccpy/lib/fortran/reorder.f90:inverse_permute_array"]}
{"id": "C42", "title": "Cluster analysis inverts the exponential ansatz", "statement": "cluster_analysis_t2/t3 return antisymmetric T2, T3 such that C2 = T2 + T1^2/2 and C3 = T3 + T1 T2 + T1^3/6 for every excitation with non-zero CI coefficient (and zero otherwise).", "quantifier": "every CI amplitude set", "why_tests_cant": "real tensors of any size", "anchors": ["ccpy/lib/fortran/clusteranalysis.f90:cluster_analysis_t2", "ccpy/lib/fortran/clusteranalysis.f90:cluster_analysis_t3"]}
{"id": "C43", "title": "Amplitude update kernels keep antisymmetry and stop exactly at solutions", "statement": "update_t1/t2/t3 kernels return antisymmetric amplitudes, change each amplitude by the antisymmetrised residual over the shifted orbital-energy difference, return this change as residual, and leave amplitudes unchanged exactly when all (antisymmetrised) residuals vanish.", "quantifier": "every amplitudes, residuals, orbital counts, denominators and shift", "why_tests_cant": "real tensors of any size", "anchors": ["ccpy/lib/fortran/cc_loops2.f90:update_t1a", "ccpy/lib/fortran/cc_loops2.f90:update_t2a", "ccpy/lib/fortran/cc_loops2.f90:update_t3a_v2", "ccpy/lib/fortran/cc_loops2.f90:update_t3b_v2"]}
{"id": "C44", "title": "MP2 restricted sums equal the full antisymmetrised sums", "statement": "mbpt_loops.mp2 over unique pairs equals one quarter of the unrestricted sum for like-spin pairs plus the opposite-spin sum.", "quantifier": "every antisymmetric integrals and orbital energies", "why_tests_cant": "real tensors of any size", "anchors": ["ccpy/lib/fortran/mbpt_loops.f90:mp2"]}
{"id": "C45", "title": "Combinatorics helpers are exact", "statement": "binom_i(m,n) is the binomial coefficient for 0<=n<=m, factorial(n)=n!, and next_combination steps through all r-subsets in lexicographic order, reporting done after the last.", "quantifier": "every m, n, r", "why_tests_cant": "unbounded integers; exactness of the interleaved integer division", "anchors": ["ccpy/lib/fortran/combinatorics.f90:binom_i", "ccpy/lib/fortran/combinatorics.f90:factorial", "ccpy/lib/fortran/combinatorics.f90:next_combination"]}
{"id": "C46", "title": "Fortran build order respects module dependencies and always terminates", "statement": "For every set of source files the build-order tool reports a module defined twice; otherwise it reports a genuine circular dependency if there is one; otherwise it terminates and returns a permutation of the files in which every file comes after the files whose modules it uses.", "quantifier": "every list of files (fewer than the recursion limit), every contents, every set iteration order", "why_tests_cant": "unbounded graphs; termination", "anchors": ["devtools/order_fortran_dependencies.py:DependencyScan.order_dependencies", "devtools/order_fortran_dependencies.py:DependencyScan.scan", "devtools/order_fortran_dependencies.py:main"]}
{"id": "C47", "title": "Cycle detection is sound and complete", "statement": "_has_cycle never answers wrongly: a reported cycle is a closed walk of the graph, None means nothing reachable is on a cycle; on every graph with fewer vertices than the recursion limit it answers; deeper chains raise RecursionError and dangling edges KeyError.", "quantifier": "every finite directed graph and recursion limit", "why_tests_cant": "unbounded graphs", "anchors": ["devtools/order_fortran_dependencies.py:_has_cycle"]}
{"id": "C48", "title": "CIS spin matrix is the total-spin operator", "statement": "The S^2 matrix used for CIS guesses is the matrix of the total-spin operator between the single excitations of the reference, for closed and open shells; the version with symmetry keeps exactly the entries of the target irrep; both implementations agree; for closed shells equal alpha and beta amplitudes give eigenvalue 0 and opposite amplitudes give 2; the same holds for electron-removal guesses.", "quantifier": "every system size, every reference with at least as many up as down electrons, every single-excitation vector", "why_tests_cant": "matrices of any size", "anchors": ["ccpy/eom_guess/s2matrix.py:build_s2matrix_cis", "ccpy/eom_guess/cis.py:build_s2matrix", "ccpy/eom_guess/s2matrix.py:build_s2matrix_1h"]}
{"id": "C49", "title": "Determinants, excitations, phases and matrix elements of the determinant tools are consistent", "statement": "A determinant keeps the orbitals it is made of in increasing order and is encoded injectively in its bit string; the excitation between two determinants holds exactly the orbitals in which they differ and with its phase turns one into the other; applying an excitation and reading it back returns the same excitation; and the Slater-Condon evaluation is the matrix element of the second-quantised Hamiltonian.", "quantifier": "every determinant and excitation", "why_tests_cant": "unbounded orbital lists", "anchors": ["ccpy/models/hilbert.py:Excitation", "ccpy/models/hilbert.py:Determinant", "ccpy/models/hilbert.py:slater_eval"]}
{"id": "C50", "title": "Goodson extrapolations satisfy their defining relations", "statement": "The quadratic, rational and continued-fraction approximants reproduce the partial sums they extrapolate (they agree with the perturbation-series terms) and are defined whenever denominators and discriminants are nonzero/nonnegative; an unknown name is not silently accepted.", "quantifier": "every triple of energies", "why_tests_cant": "real-valued inputs", "anchors": ["ccpy/extrapolation/goodson_extrapolation.py"]}
{"id": "C51", "title": "Method selection fixes the operator order used by each run", "statement": "Running a method uses the excitation order / particle-hole numbers of that method, not those left over from a previously run method.", "quantifier": "every sequence of methods run on one driver", "why_tests_cant": "histories of calls", "anchors": ["ccpy/drivers/driver.py:Driver.set_operator_params"]}
{"id": "C52", "title": "RHF P-space mirroring is spin-consistent", "statement": "With RHF symmetry, run_ccp's generated beta lists are the spin mirrors of the alpha lists, row by row, with valid ordering, so flipping all spins maps the P space onto itself.", "quantifier": "every alpha list", "why_tests_cant": "unbounded lists", "anchors": ["ccpy/drivers/driver.py:Driver.run_ccp"]}
{"id": "C53", "title": "Zeroing outside the active space removes exactly the inactive amplitudes", "statement": "zero_t3*_outside_active_space leaves amplitudes with at least num_act active holes and particles untouched and zeroes all others; active-slice filling and zeroing agree.", "quantifier": "every tensor, active space and num_act", "why_tests_cant": "any sizes", "anchors": ["ccpy/utilities/active_space.py:zero_t3aaa_outside_active_space", "ccpy/utilities/active_space.py:fill_t3aaa"]}
{"id": "C54", "title": "CIPSI determinant lists are read completely", "statement": "get_triples_pspace_from_cipsi returns, per spin case, exactly the triply excited determinants of the file, each once, as valid ordered triples.", "quantifier": "every file content and system (open shells included)", "why_tests_cant": "unbounded files", "anchors": ["ccpy/utilities/pspace.py:get_triples_pspace_from_cipsi"]}
{"id": "C55", "title": "QP2 determinants convert to alternating spin order with the right sign", "statement": "process_cipsi_vectors decodes the hexadecimal alpha/beta strings to exactly the set bits, orders spin-orbitals ascending and multiplies the coefficient by the sign of that reordering; frozen orbitals are removed consistently.", "quantifier": "every bit pattern and coefficient", "why_tests_cant": "unbounded bit strings", "anchors": ["ccpy/interfaces/qp2_tools.py:process_cipsi_vectors"]}
{"id": "C56", "title": "Union of selected triples over states loses and duplicates nothing", "statement": "overlap_p_spaces returns exactly the rows present in either list, each once; repeated unions are order independent.", "quantifier": "every pair of lists", "why_tests_cant": "unbounded lists", "anchors": ["ccpy/utilities/pspace.py:overlap_p_spaces"]}
{"id": "C57", "title": "EOM preconditioners divide by energy minus excitation energy", "statement": "Each update_R kernel (EE, spin-flip, IP, EA, DIP, DEA) divides every amplitude of the block once by omega minus its zeroth-order excitation energy (plus shift where used), touches nothing else, and so maps antisymmetric vectors to antisymmetric vectors.", "quantifier": "every orbital counts, vectors, one-body diagonals, omega and shift", "why_tests_cant": "real tensors of any size", "anchors": ["ccpy/lib/fortran/cc_loops2.f90:update_R", "ccpy/lib/fortran/cc_loops2.f90:update_R_ccsdt", "ccpy/lib/fortran/cc_loops2.f90:update_R_3h2p", "ccpy/lib/fortran/cc_loops2.f90:update_R_4p2h", "ccpy/lib/fortran/cc_loops2.f90:update_R_sfccsdt"]}
{"id": "C58", "title": "Left-amplitude updates stop exactly at left eigenvectors", "statement": "update_L1/L2/L3 move every left amplitude by the left residual (omega L - LH) over the shifted diagonal, overwrite the residual array by this change, keep both arrays antisymmetric, and leave L unchanged exactly when LH = omega L.", "quantifier": "every left vector, residual, orbital counts, omega, shift", "why_tests_cant": "real tensors of any size", "anchors": ["ccpy/lib/fortran/cc_loops2.f90:update_L1", "ccpy/lib/fortran/cc_loops2.f90:update_L2", "ccpy/lib/fortran/cc_loops2.f90:update_L3"]}
{"id": "C59", "title": "Spin matrices of electron-attachment, double-attachment/ionisation and spin-flip guesses are the total-spin operator", "statement": "For every reference the S^2 matrices used to select guesses with 1p, 2p, 2h and spin-flip configurations equal the matrix of the total-spin operator between those configurations.", "quantifier": "every system size and every open- or closed-shell reference", "why_tests_cant": "matrices of any size and open-shell references", "anchors": ["ccpy/eom_guess/s2matrix.py:build_s2matrix_1p", "ccpy/eom_guess/s2matrix.py:build_s2matrix_2p", "ccpy/eom_guess/s2matrix.py:build_s2matrix_2h", "ccpy/eom_guess/s2matrix.py:build_s2matrix_sfcis"]}
{"id": "C60", "title": "CISD spin matrix is the total-spin operator", "statement": "The S^2 matrix used for active-space CISD guesses is the matrix of the total-spin operator between the reference's single excitations and active double excitations, for closed and open shells.", "quantifier": "every system size, every reference with at least as many up as down electrons, every choice of active orbitals", "why_tests_cant": "matrices of any size", "anchors": ["ccpy/eom_guess/s2matrix.py:build_s2matrix_cisd"]}
{"id": "C61", "title": "CCSD residuals are projections of the similarity-transformed Hamiltonian", "statement": "The arrays the CCSD program hands to its update kernels are, after the kernels' exchange sums, exactly the projections of exp(-T) H exp(T) |reference> on the singly and doubly excited determinants, and no contraction in them joins axes of different shape.", "quantifier": "every number of orbitals and electrons of both spins, every Hamiltonian and all antisymmetric amplitudes", "why_tests_cant": "an identity between arrays of any size and operators on Fock space; tests compare energies of a few molecules", "anchors": ["ccpy/cc/ccsd.py:update_t1a", "ccpy/cc/ccsd.py:update_t1b", "ccpy/cc/ccsd.py:update_t2a", "ccpy/cc/ccsd.py:update_t2b", "ccpy/cc/ccsd.py:update_t2c", "ccpy/hbar/hbar_ccs.py:get_pre_ccs_intermediates", "ccpy/hbar/hbar_ccs.py:get_ccs_intermediates_opt"]}
{"id": "C62", "title": "Amplitudes kept by a CCSD iteration are the solutions of the CCSD equations", "statement": "One iteration of the CCSD program leaves the amplitudes unchanged if and only if all projections on singles and doubles vanish, although residuals are evaluated with partly updated amplitudes; the arrays whose norm decides convergence are the differences of new and old amplitudes.", "quantifier": "every system size, every Hamiltonian, all antisymmetric amplitudes, every level shift with non-zero denominators", "why_tests_cant": "a statement about all solutions, not about one converged run", "anchors": ["ccpy/cc/ccsd.py:update", "ccpy/lib/source/cc_loops2.f90"]}
{"id": "C63", "title": "Correlation energies are expectation values", "statement": "The CC correlation energy is <ref|exp(-T) H exp(T)|ref> - <ref|H|ref>; if exp(T)|ref> is an eigenvector, reference plus correlation energy is the eigenvalue; the CI energy formula is <ref|H(1+C)|ref> - <ref|H|ref>.", "quantifier": "every system size, Hamiltonian and antisymmetric amplitudes", "why_tests_cant": "an identity for arrays of any size", "anchors": ["ccpy/energy/cc_energy.py:get_cc_energy", "ccpy/energy/cc_energy.py:get_ci_energy"]}
{"id": "C64", "title": "The EOM-CCSD product is the projected commutator with the transformed Hamiltonian", "statement": "The array that the EOM-CCSD program returns for an excitation vector R, computed from the intermediates that the CCSD Hamiltonian builder stores, equals the projections of [exp(-T) H exp(T), R] |reference> on the singly and doubly excited determinants, in the layout of R, and no contraction joins axes of different shape. The cluster amplitudes need not solve the CCSD equations.", "quantifier": "every number of orbitals and electrons of both spins, every Hamiltonian, all antisymmetric cluster and excitation amplitudes", "why_tests_cant": "an identity between arrays of any size and operators on Fock space; tests compare excitation energies of a few molecules", "anchors": ["ccpy/eomcc/eomccsd.py:HR", "ccpy/eomcc/eomccsd_intermediates.py:get_eomccsd_intermediates", "ccpy/hbar/hbar_ccsd.py:build_hbar_ccsd"]}
{"id": "C65", "title": "Left CCSD equations", "statement": "The left CCSD matrix-vector product (LH_fun of ccpy/left/left_ccsd.py applied to the intermediates of build_hbar_ccsd) gives, for every single and double excitation τ, the expectation value of L [exp(-T) H exp(T), τ] in the reference determinant; the residual of the left ground state adds the same expectation value without L, so that it is that of (1+L) [exp(-T) H exp(T), τ]; the residual of an excited state adds nothing. All contractions have matching shapes.", "quantifier": "every Hamiltonian with antisymmetrized integrals, every number of orbitals and electrons, all cluster amplitudes (converged or not) and left amplitudes with the antisymmetry of same-spin doubles", "why_tests_cant": "Tests compare left eigenvalues and properties for a few molecules; a wrong term, sign or factor that is small for these molecules, or vanishes by symmetry, goes unnoticed.", "anchors": ["ccpy/left/left_ccsd.py:LH_fun", "ccpy/left/left_ccsd.py:update", "ccpy/left/left_cc_intermediates.py:build_left_ccsd_intermediates", "ccpy/hbar/hbar_ccsd.py:build_hbar_ccsd"]}
{"id": "C66", "title": "CCSDT residuals", "statement": "The arrays that the CCSDT program computes before each amplitude update are, after the antisymmetrisation that the update kernels perform, the projections of exp(-T) H exp(T), with T = T1 + T2 + T3, applied to the reference determinant on the singly, doubly and triply excited determinants of every spin case. All contractions have matching shapes.", "quantifier": "every Hamiltonian with antisymmetrized integrals, every number of orbitals and electrons, all amplitudes (converged or not) with the antisymmetry of same-spin excitations, whatever intermediates the iteration starts from", "why_tests_cant": "Tests compare converged energies of a few small molecules; a wrong term, sign or factor that is small for these molecules, or vanishes by symmetry, goes unnoticed.", "anchors": ["ccpy/cc/ccsdt.py:update_t1a", "ccpy/cc/ccsdt.py:update_t2a", "ccpy/cc/ccsdt.py:update_t3a", "ccpy/cc/ccsdt.py:update_t3b", "ccpy/hbar/hbar_ccs.py:get_ccs_intermediates_opt", "ccpy/hbar/hbar_ccsd.py:get_ccsd_intermediates"]}
{"id": "C67", "title": "CCSDT fixed points", "statement": "One iteration of the CCSDT program leaves the amplitudes unchanged exactly when they satisfy the CCSDT equations, although later residuals of the iteration are computed from amplitudes that are already updated; the recorded increments, whose norm decides on convergence, are the differences of new and old amplitudes.", "quantifier": "every Hamiltonian with antisymmetrized integrals, all amplitudes with the antisymmetry of same-spin excitations, every shift for which no denominator vanishes", "why_tests_cant": "A test sees only the converged energies of a few molecules; a converged result that does not solve the equations, or solutions at which the iteration does not stop, need a statement for all amplitudes.", "anchors": ["ccpy/cc/ccsdt.py:update", "ccpy/lib/fortran/cc_loops2.f90:update_t3a_v2"]}
{"id": "C68", "title": "density matrix as expectation value", "statement": "The one-particle density matrices that calc_rdm1 returns are the expectation values of q† p with the left state <Phi|(1+L) exp(-T) and the right state exp(T)|Phi>, element by element and for both spins, whether or not the operators contain triple excitations.", "quantifier": "every number of orbitals and electrons, all amplitudes T and L with the antisymmetry of same-spin excitations, every element of the eight blocks", "why_tests_cant": "Tests compare natural occupation numbers or dipole moments of a few molecules; a wrong term or factor in one block that vanishes by symmetry or is small goes unnoticed.", "anchors": ["ccpy/density/rdm1.py:calc_rdm1"]}
{"id": "C69", "title": "The closed-shell branch of the CCSD program solves the CCSD equations of both spins", "statement": "With RHF symmetry (the default of the driver when there are as many electrons of each spin) the CCSD iteration computes the amplitudes of spin up and of opposite spins only and copies the others. For closed-shell Hamiltonians and amplitudes that do not change on reversal of all spins, the residuals it computes are the projections of e^{-T} H e^{T}|0>, and the iteration leaves the amplitudes unchanged if and only if they satisfy the CCSD equations of both spins. The exchange symmetry of the opposite-spin amplitudes does not hold for the amplitudes between two iterations.", "quantifier": "all numbers of orbitals and electrons with closed shells, all rational Hamiltonians that do not depend on spin, all symmetric antisymmetric amplitudes, all shifts and intermediates", "why_tests_cant": "tests compare energies of a few molecules; that the copied arrays and the shortened intermediates agree with the general program is an identity of polynomials in all amplitudes and integrals", "anchors": ["ccpy/cc/ccsd.py:update", "ccpy/hbar/hbar_ccs.py:get_pre_ccs_intermediates, get_ccs_intermediates_opt"]}
{"id": "C70", "title": "The closed-shell branch of the CCSDT program solves the CCSDT equations of both spins", "statement": "With RHF symmetry the CCSDT iteration computes t_a, t_aa, t_ab, t_aaa and t_aab and copies or transposes them into t_b, t_bb, t_abb and t_bbb. For closed-shell Hamiltonians and amplitudes that do not change on reversal of all spins, its residuals are the projections of e^{-T} H e^{T}|0> with T = T1+T2+T3, and the iteration leaves the amplitudes unchanged if and only if they satisfy the CCSDT equations of both spins.", "quantifier": "all numbers of orbitals and electrons with closed shells, all rational Hamiltonians that do not depend on spin, all symmetric antisymmetric amplitudes, all shifts and intermediates", "why_tests_cant": "tests compare energies of a few molecules; the identity ranges over all amplitudes and integrals", "anchors": ["ccpy/cc/ccsdt.py:update", "ccpy/hbar/hbar_ccsd.py:get_ccsd_intermediates"]}
{"id": "C71", "title": "EOM-CCSD products of closed shells are right for singlet and triplet states", "statement": "When the similarity-transformed CCSD Hamiltonian of a closed shell is built with RHF symmetry, the EOM-CCSD matrix-vector product without RHF symmetry (which run_guess selects for all multiplicities other than one) is the projection of [e^{-T} H e^{T}, R]|0> for every R, and the product with RHF symmetry is the projection for every R that does not change on reversal of all spins.", "quantifier": "all numbers of orbitals and electrons with closed shells, all rational Hamiltonians that do not depend on spin, all symmetric T, all R", "why_tests_cant": "tests compare a few excitation energies; the identity ranges over all amplitudes and integrals", "anchors": ["ccpy/hbar/hbar_ccsd.py:build_hbar_ccsd", "ccpy/eomcc/eomccsd.py:HR", "ccpy/drivers/driver.py:run_hbar, run_guess"]}
{"id": "C72", "title": "Left CCSD equations of closed shells are right for singlet and triplet states", "statement": "When the similarity-transformed CCSD Hamiltonian of a closed shell is built with RHF symmetry, the residuals of the left CCSD equations of the ground state and of excited states are the expectation values of (1+L)[e^{-T} H e^{T}, t] and L[e^{-T} H e^{T}, t], for every L without RHF symmetry in the update and for every L that does not change on reversal of all spins with it.", "quantifier": "all numbers of orbitals and electrons with closed shells, all rational Hamiltonians that do not depend on spin, all symmetric T, all L", "why_tests_cant": "tests compare a few energies and corrections; the identity ranges over all amplitudes and integrals", "anchors": ["ccpy/left/left_ccsd.py:update, LH_fun", "ccpy/hbar/hbar_ccsd.py:build_hbar_ccsd"]}
{"id": "C73", "title": "Electron-attachment and ionisation EOM-CCSD apply the transformed Hamiltonian exactly", "statement": "The matrix-vector products of EA-EOMCCSD(2p-1h) and IP-EOMCCSD(2h-1p), with the intermediates of build_hbar_ccsd, return <state|[exp(-T) H exp(T), R]|ref> for every determinant reached by adding or removing an electron and exciting at most one more; no array operation fails.", "quantifier": "all orbital sets, Hamiltonians with antisymmetric two-body integrals, all cluster amplitudes and all amplitudes of the operator with the antisymmetry of their index groups; numbers of orbitals and electrons are unbounded", "why_tests_cant": "Tests compare a few excitation energies with reference values; a wrong term that vanishes for the tested molecule or symmetry, or a factor that only matters for some blocks, goes unnoticed.", "anchors": ["ccpy/eomcc/eaeom2.py:HR", "ccpy/eomcc/ipeom2.py:HR", "ccpy/hbar/hbar_ccsd.py:build_hbar_ccsd"]}
{"id": "C74", "title": "The left EA- and IP-EOMCCSD equations are exact", "statement": "The vector-matrix products of the left EA-EOMCCSD(2p-1h) and IP-EOMCCSD(2h-1p) programs return <ref|L [exp(-T) H exp(T), tau]|ref> for every operator tau that adds or removes an electron and excites at most one more.", "quantifier": "all orbital sets, Hamiltonians with antisymmetric two-body integrals, all cluster amplitudes and all amplitudes of the operator with the antisymmetry of their index groups; numbers of orbitals and electrons are unbounded", "why_tests_cant": "Tests compare a few excitation energies with reference values; a wrong term that vanishes for the tested molecule or symmetry, or a factor that only matters for some blocks, goes unnoticed.", "anchors": ["ccpy/left/left_eaeom2.py:LH_fun", "ccpy/left/left_ipeom2.py:LH_fun", "ccpy/hbar/hbar_ccsd.py:build_hbar_ccsd"]}
{"id": "C75", "title": "Double electron-attachment and double ionisation EOM-CCSD apply the transformed Hamiltonian exactly", "statement": "The matrix-vector products of DEA-EOMCCSD(2p), DEA-EOMCCSD(3p-1h) and DIP-EOMCCSD(3h-1p) without spin symmetry return <state|[exp(-T) H exp(T), R]|ref> for every determinant with two electrons of different spins added or removed and at most one electron excited.", "quantifier": "all orbital sets, Hamiltonians with antisymmetric two-body integrals, all cluster amplitudes and all amplitudes of the operator with the antisymmetry of their index groups; numbers of orbitals and electrons are unbounded", "why_tests_cant": "Tests compare a few excitation energies with reference values; a wrong term that vanishes for the tested molecule or symmetry, or a factor that only matters for some blocks, goes unnoticed.", "anchors": ["ccpy/eomcc/deaeom2.py:HR", "ccpy/eomcc/deaeom3.py:HR", "ccpy/eomcc/dipeom3.py:HR", "ccpy/hbar/hbar_ccsd.py:build_hbar_ccsd"]}
{"id": "C76", "title": "Spin-flip EOM-CCSD applies the transformed Hamiltonian exactly", "statement": "The matrix-vector product of SF-EOMCCSD returns <state|[exp(-T) H exp(T), R]|ref> for every determinant with one spin turned from up to down and at most one further electron excited.", "quantifier": "all orbital sets, Hamiltonians with antisymmetric two-body integrals, all cluster amplitudes and all amplitudes of the operator with the antisymmetry of their index groups; numbers of orbitals and electrons are unbounded", "why_tests_cant": "Tests compare a few excitation energies with reference values; a wrong term that vanishes for the tested molecule or symmetry, or a factor that only matters for some blocks, goes unnoticed.", "anchors": ["ccpy/eomcc/sfeomccsd.py:HR", "ccpy/hbar/hbar_ccsd.py:build_hbar_ccsd"]}
{"id": "C77", "title": "Closed shells: the transformed Hamiltonian and the attachment and ionisation products built with spin symmetry are exact", "statement": "For closed shells build_hbar_ccsd computes the same arrays whether or not it uses spin symmetry, and the products of EA-, IP-, DEA- and DIP-EOMCCSD and left EA- and IP-EOMCCSD computed from the arrays built with spin symmetry are the exact matrix elements of exp(-T) H exp(T).", "quantifier": "all closed-shell orbital sets and Hamiltonians, all spin-symmetric cluster amplitudes and all amplitudes of the operator", "why_tests_cant": "The spin-symmetric branch is chosen automatically for every closed shell; a block copied from the wrong spin case shows up only in open-shell target states with particular symmetries.", "anchors": ["ccpy/hbar/hbar_ccsd.py:build_hbar_ccsd", "ccpy/eomcc/eaeom2.py:HR", "ccpy/eomcc/ipeom2.py:HR", "ccpy/eomcc/deaeom3.py:HR", "ccpy/eomcc/dipeom3.py:HR"]}
{"id": "C78", "title": "Double attachment and double ionisation of closed shells with spin symmetry", "statement": "For closed shells and amplitudes of singlet states, the matrix-vector products of DEA-EOMCCSD(3p-1h) and DIP-EOMCCSD(3h-1p) with spin symmetry, where the block abb is the transpose of aba, return <state|[exp(-T) H exp(T), R]|ref>; with amplitudes of triplet states they do not.", "quantifier": "all closed-shell orbital sets and Hamiltonians, all spin-symmetric cluster amplitudes and all amplitudes of the operator with singlet symmetry", "why_tests_cant": "The symmetric branch is used automatically for closed shells; tests compare a few energies only.", "anchors": ["ccpy/eomcc/deaeom3.py:HR", "ccpy/eomcc/dipeom3.py:HR", "ccpy/hbar/hbar_ccsd.py:build_hbar_ccsd"]}
{"id": "C79", "title": "CCD equations", "statement": "The arrays handed to the CCD update kernels are the projections of exp(-T2) H exp(T2)|ref> on the doubly excited determinants, and the amplitudes that one iteration leaves unchanged are exactly the solutions of the CCD equations, for both settings of RHF_symmetry.", "quantifier": "all orbital sets, Hamiltonians, amplitudes and shifts with non-zero denominators", "why_tests_cant": "Tests compare one converged energy; a wrong diagram can vanish by symmetry of that molecule.", "anchors": ["ccpy/cc/ccd.py:update", "ccpy/cc/ccd.py:update_t2a", "ccpy/cc/ccd.py:update_t2b", "ccpy/cc/ccd.py:update_t2c"]}
{"id": "C80", "title": "CC2 equations", "statement": "The arrays handed to the CC2 update kernels are the projections of exp(-T) H exp(T)|ref> on the singly excited determinants and of (exp(-T1) H exp(T1) + [F,T2])|ref> on the doubly excited ones, and the amplitudes that one unrestricted iteration leaves unchanged are exactly the solutions of the CC2 equations.", "quantifier": "all orbital sets, Hamiltonians, amplitudes and shifts with non-zero denominators", "why_tests_cant": "Tests compare one converged energy; a wrong diagram can vanish by symmetry of that molecule.", "anchors": ["ccpy/cc/cc2.py:update", "ccpy/cc/cc2.py:update_t1a", "ccpy/cc/cc2.py:update_t2a", "ccpy/cc/cc2.py:update_t2b"]}
{"id": "C81", "title": "Restricted CC2 of closed shells", "statement": "For closed shells the CC2 iteration with RHF_symmetry=True, which the driver chooses by default, keeps exactly the solutions of the CC2 equations.", "quantifier": "all closed-shell orbital sets and Hamiltonians and all spin-symmetric amplitudes", "why_tests_cant": "The CC2 test of the repository sets RHF_symmetry=False.", "anchors": ["ccpy/cc/cc2.py:update", "ccpy/hbar/hbar_ccs.py:get_pre_ccs_intermediates"]}
{"id": "C82", "title": "Update of listed triple excitations in CCSDT(P)", "statement": "For every choice of the lists of triple excitations, each of the four CCSDT(P) update kernels succeeds and returns the same excitations, in some order and each with its own amplitude, increased by the projection of exp(-T) H exp(T)|ref> on this excitation divided by the shifted energy denominator, where T contains exactly the listed triples (all permutations of a row with the proper sign) and no others.", "quantifier": "all orbital sets, Hamiltonians, one- and two-body amplitudes, shifts, and all lists of ordered triple excitations (including the empty-list placeholder), in any order", "why_tests_cant": "The kernels sort the lists in place for every diagram and look rows up in index tables, so an error appears only for lists where a certain pair of rows differs in a certain way; tests use a few lists.", "anchors": ["ccpy/cc/ccsdt_p.py:update_t3a", "ccpy/cc/ccsdt_p.py:update_t3b", "ccpy/cc/ccsdt_p.py:update_t3c", "ccpy/cc/ccsdt_p.py:update_t3d", "ccpy/lib/fortran/ccsdt_p_loops.f90:update_t3a_p", "ccpy/lib/fortran/ccsdt_p_loops.f90:update_t3b_p", "ccpy/lib/fortran/ccsdt_p_loops.f90:update_t3c_p", "ccpy/lib/fortran/ccsdt_p_loops.f90:update_t3d_p"]}
{"id": "C83", "title": "CCSDT(P) iterations solve the CCSDT(P) equations", "statement": "In CCSDT(P) with listed triple excitations, the kernels for single and double excitations add to every amplitude the projection of exp(-T) H exp(T)|ref> on this excitation divided by the shifted energy denominator, where the triples of T are exactly the listed ones; a whole iteration never fails for well-formed lists and keeps their excitations; and it reproduces all amplitudes exactly if they solve the CCSDT(P) equations (projections on all singles and doubles and on the listed triples vanish). The same holds for the branch for closed shells, which updates two of the four lists and mirrors them. A list without rows is an error, and empty lists (placeholder row) are left alone.", "quantifier": "all orbital sets, Hamiltonians, amplitudes, shifts, intermediates of earlier iterations and all lists of ordered triple excitations", "why_tests_cant": "A wrong contribution of a class of triples to singles or doubles, or an update that uses intermediates of a wrong stage, changes the converged solution only slightly and only for some lists; tests compare a few energies.", "anchors": ["ccpy/cc/ccsdt_p.py:update", "ccpy/cc/ccsdt_p.py:update_t1a", "ccpy/cc/ccsdt_p.py:update_t1b", "ccpy/cc/ccsdt_p.py:update_t2a", "ccpy/cc/ccsdt_p.py:update_t2b", "ccpy/cc/ccsdt_p.py:update_t2c", "ccpy/lib/fortran/ccsdt_p_loops.f90:update_t1a", "ccpy/lib/fortran/ccsdt_p_loops.f90:update_t1b", "ccpy/lib/fortran/ccsdt_p_loops.f90:update_t2a", "ccpy/lib/fortran/ccsdt_p_loops.f90:update_t2b", "ccpy/lib/fortran/ccsdt_p_loops.f90:update_t2c"]}
{"id": "C84", "title": "CR-CC(2,3) corrections are sums over triply excited determinants", "statement": "The four CR-CC(2,3) corrections (variants A to D) that the program adds to the CCSD energy are exactly the sums over all triply excited determinants K of <K|Hbar|ref> <ref|(1+L)Hbar|K> / D(K), with Hbar = exp(-T) H exp(T), each determinant counted once. D(K) is the difference of orbital energies for variant A, the sum of the removal and attachment energies of single electrons under Hbar for variant B, the full difference <ref|Hbar|ref> - <K|Hbar|K> for variant D, and that difference without three-electron interactions for variant C. With more beta than alpha electrons the program has no defined result. For closed shells the program takes the determinants with two or three excited alpha electrons twice instead of visiting the others; the result is the same sum over all triply excited determinants.", "quantifier": "all orbital sets with at least as many alpha as beta electrons, all Hamiltonians, all CCSD and left CCSD amplitudes (converged or not)", "why_tests_cant": "A missing or doubly counted exchange term, a wrong sign of one diagram of the moments or of the left moments, or one wrong term of a denominator changes energies by small amounts and vanishes for small or symmetric molecules; tests compare a few energies.", "anchors": ["ccpy/moments/crcc23.py:calc_crcc23", "ccpy/hbar/diagonal.py", "ccpy/lib/fortran/crcc_loops.f90:crcc23A_opt", "ccpy/lib/fortran/crcc_loops.f90:crcc23B_opt", "ccpy/lib/fortran/crcc_loops.f90:crcc23C_opt", "ccpy/lib/fortran/crcc_loops.f90:crcc23D_opt"]}
{"id": "C85", "title": "CCSD(T) correction is the documented sum over triply excited determinants", "statement": "For real orbitals the CCSD(T) correction is the sum over all triply excited determinants K, each counted once, of <K|[H,T]|ref> <ref|T^dagger V|K> / D(K), with differences D of orbital energies, in the open-shell and in the closed-shell code path. According to the comment in the code V leaves out the Fock operator also for references that do not satisfy the Brillouin theorem. With more beta than alpha electrons the program has no defined result.", "quantifier": "all orbital sets with at least as many alpha as beta electrons, all real Hamiltonians, all CCSD amplitudes (converged or not)", "why_tests_cant": "For canonical closed shells the off-diagonal Fock elements vanish, so that terms with them are never exercised; a missing permutation changes energies by small amounts.", "anchors": ["ccpy/moments/crcc23.py:calc_ccsdpt", "ccpy/lib/fortran/ccsdpt_loops.f90:ccsdptA_opt", "ccpy/lib/fortran/ccsdpt_loops.f90:ccsdptB_opt", "ccpy/lib/fortran/ccsdpt_loops.f90:ccsdptC_opt", "ccpy/lib/fortran/ccsdpt_loops.f90:ccsdptD_opt"]}
{"id": "C86", "title": "MBPT(2) and MBPT(3) energies are the sums over doubly excited determinants", "statement": "calc_mp2 returns the sum over all doubly excited determinants K, each counted once, of <ref|H|K><K|H|ref> / D(K), and calc_mp3 adds the sum of <ref|H|K><K|[V,T]|ref> / D(K), where T holds the double excitations of first order <K|H|ref> / D(K), V is the Hamiltonian without the Fock operator, and D(K) are differences of orbital energies. The second statement needs that the result variable of the Fortran subroutine mp3 holds zero on entry, because the subroutine adds to it without setting it.", "quantifier": "all orbital sets, all integrals antisymmetric for equal spins, all contents of memory", "why_tests_cant": "A wrong sign or pair in one of the ring terms changes the energy by a small amount that has the right order of magnitude; terms of one spin case vanish for closed shells by symmetry.", "anchors": ["ccpy/mbpt/mbpt.py:calc_mp2", "ccpy/mbpt/mbpt.py:calc_mp3", "ccpy/lib/fortran/mbpt_loops.f90:mp2", "ccpy/lib/fortran/mbpt_loops.f90:mp3"]}
{"id": "C87", "title": "Guess matrices hold the matrix elements of the transformed Hamiltonian", "statement": "The matrices built for initial guesses (CIS, spin-flip CIS, one particle, one hole, active-space two particles and two holes) from the intermediates of build_hbar_ccsd have, at the running numbers of two determinants K and t|ref>, the element <K|[exp(-T) H exp(T), t]|ref>; rows and columns of determinants outside the target irrep are zero. The coefficients of the two-particle and two-hole eigenvectors are written at the places of their determinants in the full vector when the reference is a singlet; for other multiplicities they are not.", "quantifier": "all orbital sets, integrals and cluster amplitudes antisymmetric for equal spins, symmetry selections, active-space sizes", "why_tests_cant": "A swapped index in one element still gives a matrix with reasonable eigenvalues, and a guess that is permuted over determinants only slows down or redirects the later iteration.", "anchors": ["ccpy/eom_guess/cis.py:build_cis_hamiltonian", "ccpy/eom_guess/sfcis.py:build_sfcis_hamiltonian", "ccpy/eom_guess/eacis.py:build_1p_hamiltonian", "ccpy/eom_guess/ipcis.py:build_1h_hamiltonian", "ccpy/eom_guess/deacis.py:build_2p_hamiltonian", "ccpy/eom_guess/deacis.py:scatter", "ccpy/eom_guess/dipcis.py:build_2h_hamiltonian", "ccpy/eom_guess/dipcis.py:scatter"]}
{"id": "C88", "title": "Four-particle terms of the Cholesky variants", "statement": "The terms the Cholesky variants compute with the Fortran contraction routine are those of the conventional programs: for mixed spins the sum over e,f of <ab|ef> r_efij with the integrals given by the Cholesky vectors (<ef|ab> in the left equations), for equal spins a term that after antisymmetrisation equals 1/8 of the sum over e,f of <ab||ef> r_efij, whatever else the residual holds and however the iterations are distributed over threads. The linear index of <ab||cd> is different for different pairs (a,b); it is not for different pairs (c,d).", "quantifier": "all numbers of orbitals and vectors, all Cholesky vectors, all arrays (antisymmetric for equal spins), all distributions of iterations over threads", "why_tests_cant": "The parallel loops, the table of pairs, the two transpositions of array order and the factor 1/2 only agree with the conventional program in combination; a test compares one final energy of one molecule on one number of threads.", "anchors": ["ccpy/lib/fortran/vvvv_contraction.f90:vvvv_t2_sym", "ccpy/lib/fortran/vvvv_contraction.f90:vvvv_t2", "ccpy/lib/fortran/vvvv_contraction.f90:vvvv_index", "ccpy/eomcc/eomccsd_chol.py:build_HR_2A", "ccpy/left/left_ccsd_chol.py:build_LH_2A", "ccpy/cc/ccsd_chol.py:update_t2a"]}
{"id": "C89", "title": "Transformation to natural orbitals", "statement": "The transformation to natural orbitals finds left and right eigenvectors of the density matrix, sorted by decreasing occupation, that are biorthonormal, do not mix occupied with unoccupied orbitals (the elements between them are left out), and gives one- and two-body integrals that represent the same operators as before. The vectors are biorthonormal only when the eigensolver returns left and right vectors with positive products: the program divides by the absolute value of the product.", "quantifier": "all numbers of orbitals, irreps, density matrices adapted to the symmetry, and all results an eigensolver and a sort may return", "why_tests_cant": "Signs and order of eigenvectors are chosen by the library and differ between versions and machines; a test sees one choice.", "anchors": ["ccpy/density/natural_orbitals.py:transform_to_natorbs"]}
{"id": "C90", "title": "Second-order self-energy and ionisation energies", "statement": "The many-body Green's function module returns the self-energy of second order for both spins, and the ionisation energies it reports solve the Dyson equation for each occupied orbital to within the requested threshold, or are marked as not converged. This holds for occupied orbitals of spin alpha and up to as many roots as there are such orbitals. It fails for spin beta (a wrong index, loops over the wrong number of orbitals, a zero matrix from the compiled routine), for unoccupied orbitals (left zero) and for more roots (a spurious converged root).", "quantifier": "all numbers of orbitals, orbital energies, antisymmetric integrals, energies, thresholds, numbers of roots and iterations", "why_tests_cant": "A test checks one molecule and compares alpha energies; the beta matrix, open shells and the number of roots beyond the occupied orbitals are not exercised.", "anchors": ["ccpy/mbpt/mbgf.py:calc_mp2_selfenergy", "ccpy/mbpt/mbgf.py:gf2_ip", "ccpy/lib/fortran/mbgf_loops.f90:mbgf2_selfenergy"]}
{"id": "C91", "title": "Cholesky vectors of a molecule", "statement": "The Cholesky decomposition of the repulsion integrals of a PySCF molecule, computed from blocks of integrals by shells, reproduces every integral (pq|rs) to within the requested tolerance whenever it returns. It returns for every molecule with fewer than 2*cmax-1 basis functions. It does not return for all molecules: with 2*cmax-1 basis functions or more (19 for the default) the buffer can be too short, and an IndexError is raised.", "quantifier": "all molecules (numbers and sizes of shells), positive semidefinite integrals, tolerances and buffer sizes", "why_tests_cant": "A test decomposes the integrals of one molecule and compares an energy; it does not bound the error of each integral, nor find the size at which the buffer is too short.", "anchors": ["ccpy/cholesky/cholesky.py:cholesky_eri_from_pyscf", "ccpy/interfaces/pyscf_tools.py:load_pyscf_integrals"]}
{"id": "C92", "title": "Linear-response CCSD", "statement": "The arrays that a linear-response CCSD calculation drives to zero are the projections of [e^-T H e^T, R] + e^-T W e^T on the singly and doubly excited determinants, for the one-body property W and the response amplitudes R; the reported property is the projection on the reference determinant without the expectation value of W in it. For the doubles of mixed spin this holds only if both spins have the same number of electrons and the same matrix of the property.", "quantifier": "all orbitals, antisymmetric Hamiltonians, cluster and response amplitudes, and properties", "why_tests_cant": "A test compares one component of a dipole moment or polarizability of a closed-shell molecule, for which the matrices of the property for the two spins are equal; it cannot see that one block is taken from the wrong spin, nor that each array is the projection for all amplitudes.", "anchors": ["ccpy/lrcc/lrccsd.py:update_t1a", "ccpy/lrcc/lrccsd.py:update_t2a", "ccpy/lrcc/lrccsd.py:update_t2b", "ccpy/lrcc/lrccsd_intermediates.py:get_lrccsd_intermediates", "ccpy/energy/lrcc_energy.py:get_lrcc_energy"]}
