# Design: a Lean 4 model of ccpy

This file is the plan and, as the work proceeds, the record of what was modelled and proved.

## Layout

* `lean/Verif/Model/*` : the model, one file per area of /repo; every definition cites file and lines.
* `lean/Verif/Spec/*` : small independent specifications.
* `lean/Verif/Lemmas/*` : helper lemmas (no property is stated here).
* `lean/Verif/Props/*` : the property theorems, each with a concrete example meeting its hypotheses.

## Plan per property

* **C01** Permutation parity is the sign of the permutation. Model the selection-sort loop on List Nat with a swap counter; relate to Equiv.Perm.sign by induction on the loop index.
* **C02** Lineup permutation puts two determinants in maximum coincidence with correct signs. Model the merge on sorted lists; prove common prefix, disjoint remainders, permutation and sign facts.
* **C03** Excitation extraction between two determinants is exact. Model with lists/Finsets; spincase returns Except.
* **C04** CI coefficients get the phase of the excitation operator acting on the reference. Define the true phase by applying creation/annihilation operators to an occupation list (counting transpositions); inversion-count argument; negation witness for open shells.
* **C05** Inserting a CI amplitude keeps the tensor antisymmetric and stores the value. Tensor = function on indices, writes = Function.update sequence mirroring the code; prove closure under antisymmetry.
* **C06** System electron and orbital counts are consistent. Integer arithmetic model (Int.tdiv for int(x/2)); omega.
* **C07** Active-space sizes partition the orbital spaces. Nat model with truncated max/min; alpha + beta-core/act proved, beta virtual negated with witness and partial (closed shell).
* **C08** Irrep tables form abelian groups under the bitwise product. Finite tables; decide over the complete table, lifted to lists of irreps by induction.
* **C09** Reference symmetry of a determinant is the XOR of its occupied orbital irreps. Fold of XOR over an occupation list; pairs cancel.
* **C10** Amplitude vectors round-trip through flatten and unflatten. Shape lists; flatten = concatenation, unflatten = successive take/drop; round trip by induction; negation for count-0 P space and for active ranks.
* **C11** Extending the P space keeps old amplitudes and the vector length. State machine of the operator's amplitude lists; invariant by induction over growth histories, off-by-one negation at old count 0.
* **C12** Active-space triples lists contain exactly the allowed triples, once each. List comprehension model of the nested loops; membership iff and Nodup.
* **C13** P and Q spaces partition the triples. As C12 with membership test against P; disjoint/exhaustive.
* **C14** The empty-list placeholder row is never a real excitation. Generated rows are strictly ordered so never the row of ones.
* **C15** 3p2h, 3h2p and 4p2h active lists are exact. As C12 with other loop shapes.
* **C16** Symmetry-resolved excitation counts add up. Counting = list length/filter lengths; sums over irreps; binomials by Finset.card of powersetCard.
* **C17** P-space growth adds exactly the selected triples. Fold over selected rows; append/mirror/counter lemmas; history invariant.
* **C18** Moment-based selection returns the largest corrections. Model of the Fortran buffer as state machine over a stream; negation witnesses (dropped triple, unsorted minimum); partial: no overflow and single routine gives the top-k.
* **C19** Adaptive growth schedule adds up to the whole space. Nat telescoping sum by induction.
* **C20** Adaptive macro-iteration loop terminates with consistent bookkeeping. Loop with fuel = nmacro over an abstract energy sequence.
* **C21** DIIS history holds the most recent vectors whenever it extrapolates. Ring buffer invariant over pushes.
* **C22** DIIS weights solve the constrained least-squares system. Gaussian elimination over a field with exception on zero pivot; correctness by loop invariant (row operations preserve solutions); weights sum 1; negation for zero pivot.
* **C23** The CC solver reports convergence truthfully. Loop over abstract update/energy functions; postcondition by induction; negation for the non-converged return.
* **C24** Davidson projected matrix matches the subspace. Matrix state over an abstract bilinear form; invariant over iterations incl. restart with nrest=1; negation for nrest=2.
* **C25** Block Davidson stays within its workspace and reports non-convergence. Size bookkeeping model with explicit bounds error; negation witness + partial.
* **C26** Gram-Schmidt produces an orthonormal basis of the same span. Real inner product model.
* **C27** Two-electron integrals are antisymmetrised correctly. Functions on indices; ring.
* **C28** Sorted integral blocks partition the full tensor. Fin (o+v) split; exact reconstruction.
* **C29** Reference energy and Fock matrix agree. Finite sums over a commutative ring.
* **C30** Cholesky and conventional Hamiltonians agree for exact factors. Finite sums over a commutative ring under the factorisation hypothesis.
* **C31** Pivoted Cholesky reproduces the matrix on processed pivots and tracks its error. Loop invariant on matrices over an ordered field with abstract sqrt.
* **C32** FCIDUMP integrals are loaded with full permutational symmetry. Line-by-line fold of writes; symmetric invariants; negation for orbital-energy lines.
* **C33** Integral dump and load are inverse. Writer as list of lines, reader as fold; equality for all symmetric tensors.
* **C34** P-space amplitudes unravel to the antisymmetric tensor they represent. Fold of 36/4 writes per row; read-back by nodup.
* **C35** Left-right overlaps agree between packed and full storage. Sums over antisymmetric functions = factorial times sums over ordered tuples.
* **C36** One-particle density traces to the electron number. Trace identities by reindexing finite sums.
* **C37** State-specific density matrices are stored per state. Heap model with shared row reference; negation + partial for one state.
* **C38** Merge argsort sorts. Bottom-up merge sort model; sorted + permutation.
* **C39** Sorting P-space triples into blocks addresses every triple exactly once. Counter tables as list positions; block-range theorem; negations (single row, zero rows).
* **C40** Reordering amplitudes to another list keeps amplitude-excitation pairs. Swap loop invariant.
* **C41** Stride-based tensor reordering is the index permutation. Mixed-radix index bijection.
* **C42** Cluster analysis inverts the exponential ansatz. Function tensors; algebraic identity; antisymmetry of writes.
* **C43** Amplitude update kernels keep antisymmetry and stop exactly at solutions. Loop nests as folds over representatives; every orbit of the exchange group is visited once; per-orbit write lists cover the group.
* **C44** MP2 restricted sums equal the full antisymmetrised sums. Finite sum reindexing.
* **C45** Combinatorics helpers are exact. Loop invariants vs Nat.choose, factorial, lexicographic successor.
* **C46** Fortran build order respects module dependencies and always terminates. Scan, cycle check and swapping loop as fuelled functions; potential (position times rank) grows with every swap, so n^3+1 passes suffice; duplicates and cycles are separate branches.
* **C47** Cycle detection is sound and complete. Depth-first search with visited/path state; invariant: finished vertices are in topological order.
* **C48** CIS spin matrix is the total-spin operator. Entries computed from the anticommutation rules of a small Fock-space library (S^2 = S-S+ + Sz(Sz+1)), compared with the modelled loops; eigenvectors by direct matrix action.
* **C49** Determinant bit strings and Slater-Condon phases are consistent. Bit string model; round trips; negation of convention mismatch.
* **C50** Goodson extrapolations satisfy their defining relations. Field identities.
* **C51** Method selection fixes the operator order used by each run. State machine of driver parameters; negation for spin-flip.
* **C52** RHF P-space mirroring is spin-consistent. List map model.
* **C53** Zeroing outside the active space removes exactly the inactive amplitudes. Sliced writes as predicate; compare predicate with activity counts.
* **C54** CIPSI determinant lists are read completely. Fold with early exit; negation for `break`; partial.
* **C55** QP2 determinants convert to alternating spin order with the right sign. Bit decoding + parity.
* **C56** Union of selected triples over states loses and duplicates nothing. List union model.
* **C57** EOM preconditioners divide by energy minus excitation energy. All 13 kernels (60 loop nests) modelled as nested loops; compositional elementwise-update lemma; index kinds taken from the array declarations.
* **C58** Left-amplitude updates stop exactly at left eigenvectors. As C43 with ascending representatives and two arrays swept at once.
* **C59** Spin matrices of electron-attachment, double-attachment/ionisation and spin-flip guesses are the total-spin operator. True for closed shells (partial theorems); for open shells the code misses terms, shown by concrete references (fails theorems).
* **C60** CISD spin matrix is the total-spin operator. Matrix elements between singles and doubles by normal-ordering tactic on the Fock-space library, then block by block.
* **C61** CCSD residuals are projections of the similarity-transformed Hamiltonian. The einsum programs are translated statement by statement into a small expression language. A verified symbolic engine (Verif/Engine: Wick's theorem and similarity transformation as computations on lists, canonical forms of contractions) decides the identity for all sizes; its soundness theorem links both sides to Fock-space operators.
* **C62** Amplitudes kept by a CCSD iteration are the solutions of the CCSD equations. C61 for the residuals, the kernel theorems of C43 for the Jacobi steps; the stages of the iteration are chained by renaming the arrays that have become equal.
* **C63** Correlation energies are expectation values. The engine of C61.
* **C64** The EOM-CCSD product is the projected commutator with the transformed Hamiltonian. The engine of C61 with the commutator [H-bar, R] as a derivation of the nested commutators (Engine/Derivation).
* **C65** Left CCSD equations. Model the einsum statements as tensor expressions; derive the expectation values symbolically from second quantisation with the verified engine and compare inside the kernel.
* **C66** CCSDT residuals. Model the einsum statements as tensor expressions; derive the projections symbolically from second quantisation with the verified engine, bra operators kept open, and compare inside the kernel.
* **C67** CCSDT fixed points. Model the iteration as nine stages writing new arrays; a general lemma on staged updates reduces a fixed point to the vanishing of each residual, C66 identifies these with projections.
* **C68** density matrix as expectation value. Show that the model has the values of tensor programs, derive the expectation values symbolically from second quantisation with the verified engine and compare inside the kernel; the case without triples follows with zero triples.
* **C69** The closed-shell branch of the CCSD program solves the CCSD equations of both spins. The restricted branch is modelled as the same tensor programs with flag_RHF=True. A verified comparison of tensor programs after identification of the two spins (Engine/Fold, Engine/ClosedShell) shows that the restricted intermediates give the residuals of C61; the equations of the other spin follow by reversal of the spins. The fixed points follow stage by stage as in C62. A concrete closed shell shows that the symmetry of t_ab is lost after the first iteration.
* **C70** The closed-shell branch of the CCSDT program solves the CCSDT equations of both spins. As C69 with the residuals of C66. The equations of t_abb and t_bbb follow from those of t_aab and t_aaa by exchange of the names of the spins (Lemmas/FlipBasic).
* **C71** EOM-CCSD products of closed shells are right for singlet and triplet states. Comparison of the tensor programs after identification of the spins, with R either arbitrary (Engine/ClosedFirst) or symmetric, then C64.
* **C72** Left CCSD equations of closed shells are right for singlet and triplet states. As C71, then C65.
* **C73** Electron-attachment and ionisation EOM-CCSD apply the transformed Hamiltonian exactly. Model the programs as tensor expressions; compare them in the kernel with the Wick expansion of the commutator by the verified symbolic engine (Engine/Parts).
* **C74** The left EA- and IP-EOMCCSD equations are exact. As C73, with the adjoint operator on the left.
* **C75** Double electron-attachment and double ionisation EOM-CCSD apply the transformed Hamiltonian exactly. As C73.
* **C76** Spin-flip EOM-CCSD applies the transformed Hamiltonian exactly. As C73.
* **C77** Closed shells: the transformed Hamiltonian and the attachment and ionisation products built with spin symmetry are exact. Compare the two branches block by block in the kernel for closed shells, then substitute equal blocks into the programs of C73 to C75 (Engine/Subst).
* **C78** Double attachment and double ionisation of closed shells with spin symmetry. Derive the abb case from the aba case by exchange of the names of the spins (Lemmas/FlipPair), then C77 and C75.
* **C79** CCD equations. Derive the projections with the verified engine with T2 alone as cluster operator and compare in the kernel.
* **C80** CC2 equations. Split each doubles residual into the part of exp(-T1) H exp(T1) and the commutator with the Fock operator and compare each in the kernel.
* **C81** Restricted CC2 of closed shells. Compare the restricted residuals with the unrestricted ones over a closed shell; the in-place additions to one shared array make the equal-spin doubles differ, so prove the exact difference and a counterexample.
* **C82** Update of listed triple excitations in CCSDT(P). Model every block of the kernels as sort, index table and loop; show that each block adds the sum over all pairs of rows of its matrix element, that the blocks together are the residual arrays of CCSDT for antisymmetric amplitudes, and use C66.
* **C83** CCSDT(P) iterations solve the CCSDT(P) equations. Show that the loops over the rows add the contributions of the listed triples to all places of the residual, that the sum with the other diagrams is the CCSDT residual for the listed triples, and use C66; combine the stages as in C67 and use C82 for the lists. For closed shells compare the arrays of the restricted branch with the general ones (as in C70) and use the reversal of spins.
* **C84** CR-CC(2,3) corrections are sums over triply excited determinants. Show that the loops are sums over ordered indices; that the moments are the triples residuals of C66 without triple excitations; check the left moments symbolically; obtain the diagonal elements of Hbar from the triples residual with a single triple excitation as T3, since exp(-t) X exp(t) for t with t*t=0 contains them; check the one-electron parts symbolically. For closed shells exchange the names of the spins in Fock space.
* **C85** CCSD(T) correction is the documented sum over triply excited determinants. Show that the loops are sums over ordered indices and check both factors symbolically: the program computes the formula with V = H. The documented formula follows for references that satisfy the Brillouin theorem and is refuted with a witness for others.
* **C86** MBPT(2) and MBPT(3) energies are the sums over doubly excited determinants. Show that the loops which store the antisymmetrised first-order amplitudes fill every element, that the restricted loops are sums over unordered pairs, and check the second-order amplitude of each spin case symbolically against the commutator (Lemmas/Mp3Checks).
* **C87** Guess matrices hold the matrix elements of the transformed Hamiltonian. Solve the loops (sums for +=, last assignment for =, counters in closed form), and get the matrix elements from the theorems about the matrix-vector products applied to a vector with one coefficient.
* **C88** Four-particle terms of the Cholesky variants. Turn the loops into finite sums, the table into the list of pairs, and use the antisymmetry of the batch and of r to go from e<f to all e,f.
* **C89** Transformation to natural orbitals. The loops over irreps write every element once; eigenvectors of the blocks are eigenvectors of the whole matrix; left and right vectors of different eigenvalues are orthogonal; the inverse of the matrix of vectors gives the operator identity.
* **C90** Second-order self-energy and ionisation energies. The loops add one element at a time; ordered pairs are half the sum over all pairs by antisymmetry; spin beta follows by exchanging spins; the iterations are compared with the recursion by induction.
* **C91** Cholesky vectors of a molecule. The look-up of shells is shown to find the shell of each function; the remainder stays positive semidefinite, so that its elements are bounded by its diagonal; the number of unordered pairs with a remainder decreases; a kernel vector of the vectors found shows that a short buffer cannot suffice.
* **C92** Linear-response CCSD. The part with the response amplitudes is the EOM-CCSD product (C64); the part with the property is compared with the transformed one-body operator by the verified symbolic engine; a concrete case shows that the block of mixed spin is wrong for a property that depends on the spin.

## Trusted base

* The Lean 4.33.0 kernel, and the Mathlib definitions that occur in statements (finite sums, finite sets, permutations, matrices, linear maps).
* Axioms: every theorem depends on a subset of `propext`, `Classical.choice`, `Quot.sound`. No axiom is added; no `sorry`, `native_decide` or `bv_decide` is used. `decide +kernel` (evaluation by the kernel) is used for closed computations: the complete irrep tables, concrete witnesses and examples, and the runs of the symbolic engine described below.
* The reading of the source: the model is hand-written (the einsum programs are transcribed by a script from the Python text and then compiled as Lean definitions), from /repo at the pinned commit. Nothing checks mechanically that the model and the source agree.
* Numbers: floating-point arithmetic is replaced by exact arithmetic in the rationals, the reals or any field of characteristic zero; the fixed-width integers of Fortran by unbounded ones, except where a width is part of the property. Rounding, overflow, NaN propagation (except where a division by zero is a branch of its own) and parallel execution are not modelled.
* Exceptions are values: a Python exception or an out-of-bounds Fortran access is an `Except.error` (or `none`), so that error branches appear in the theorems.

### The symbolic engine

The coupled-cluster equations (C61 to C64 and the properties that build on them) are identities between programs of tensor contractions of any size and operators on Fock space. They are proved by reflection. `Verif/Engine` contains

* terms (products of named arrays, sums over orbital variables of four spaces) with a meaning over any number of orbitals,
* Wick contraction against a determinant, commutators with cluster operators, canonical forms under exchange of equivalent variables and antisymmetry,
* proofs that each of these preserves the meaning (`check_sound`, `dcheck_sound` and their relatives).

The engine is therefore not part of the trusted base: it is a set of Lean functions with soundness theorems, and a run is a kernel computation `check … = true`. The operators it talks about are those of `Verif/Spec/Fock` and its neighbours, defined with creation and annihilation operators on finite sets of spin orbitals without reference to the engine.

## Modelled code

Each definition under `Verif/Model` cites the lines it models; this is the list of source files with the model files that cover functions of them. Functions of these files that no definition cites are not modelled.

* `ccpy/cc/__init__.py`: `DriverParams`
* `ccpy/cc/cc2.py`: `Cc2`
* `ccpy/cc/ccd.py`: `Ccd`
* `ccpy/cc/ccsd.py`: `Ccsd`, `CcsdUpdate`, `KernelCalls`
* `ccpy/cc/ccsd_chol.py`: `VvvvContraction`
* `ccpy/cc/ccsdt.py`: `Ccsdt`, `CcsdtUpdate`
* `ccpy/cc/ccsdt_chol.py`: `VvvvContraction`
* `ccpy/cc/ccsdt_p.py`: `PSpaceCalls`, `PSpaceDoubles`, `PSpaceIteration`, `PSpaceSingles`, `PSpaceUpdate`
* `ccpy/cc/ccsdt_p_chol.py`: `VvvvContraction`
* `ccpy/cholesky/cholesky.py`: `PivotedCholesky`, `ShellCholesky`
* `ccpy/cholesky/cholesky_builders.py`: `Cholesky`
* `ccpy/density/natural_orbitals.py`: `NaturalOrbitals`
* `ccpy/density/rdm1.py`: `Rdm1`
* `ccpy/drivers/adaptive.py`: `Adaptive`, `PspaceUnion`
* `ccpy/drivers/diis.py`: `Diis`
* `ccpy/drivers/driver.py`: `DriverArrays`, `DriverParams`
* `ccpy/drivers/solvers.py`: `Davidson`, `Jacobi`
* `ccpy/energy/cc_energy.py`: `CcEnergy`, `Overlap`
* `ccpy/energy/hf_energy.py`: `Cholesky`, `Integrals`
* `ccpy/energy/lrcc_energy.py`: `LrCcsd`
* `ccpy/eom_guess/cis.py`: `GuessMatrix`, `SpinMatrix`
* `ccpy/eom_guess/deacis.py`: `GuessMatrix`, `SpinMatrix`
* `ccpy/eom_guess/dipcis.py`: `GuessMatrix`, `SpinMatrix`
* `ccpy/eom_guess/eacis.py`: `GuessMatrix`
* `ccpy/eom_guess/ipcis.py`: `GuessMatrix`
* `ccpy/eom_guess/s2matrix.py`: `SpinMatrix`, `SpinMatrixCisd`
* `ccpy/eom_guess/sfcis.py`: `GuessMatrix`
* `ccpy/eomcc/__init__.py`: `DriverParams`
* `ccpy/eomcc/deaeom2.py`: `DoubleAttachEom`
* `ccpy/eomcc/deaeom3.py`: `DoubleAttachEom`
* `ccpy/eomcc/dipeom3.py`: `DoubleAttachEom`
* `ccpy/eomcc/eaeom2.py`: `AttachEom`
* `ccpy/eomcc/eomccsd.py`: `EomCcsd`
* `ccpy/eomcc/eomccsd_chol.py`: `VvvvContraction`
* `ccpy/eomcc/eomccsd_intermediates.py`: `EomCcsd`
* `ccpy/eomcc/ipeom2.py`: `AttachEom`
* `ccpy/eomcc/sfeomccsd.py`: `DoubleAttachEom`
* `ccpy/extcorr/external_correction.py`: `Determinants`, `ExternalCorrection`, `InsertCi`
* `ccpy/extrapolation/goodson_extrapolation.py`: `Adaptive`, `Goodson`
* `ccpy/hbar/diagonal.py`: `CrCc23`
* `ccpy/hbar/hbar_ccs.py`: `Cc2`, `HbarCcs`
* `ccpy/hbar/hbar_ccsd.py`: `HbarCcsd`
* `ccpy/interfaces/fcidump_tools.py`: `IntegralFiles`
* `ccpy/interfaces/gamess_tools.py`: `IntegralFiles`
* `ccpy/interfaces/qp2_tools.py`: `Determinants`, `Qp2`
* `ccpy/left/__init__.py`: `DriverParams`
* `ccpy/left/left_cc_intermediates.py`: `LeftCcsd`
* `ccpy/left/left_ccsd.py`: `LeftCcsd`
* `ccpy/left/left_ccsd_chol.py`: `VvvvContraction`
* `ccpy/left/left_eaeom2.py`: `AttachEom`
* `ccpy/left/left_ipeom2.py`: `AttachEom`
* `ccpy/lib/fortran/cc_loops2.f90`: `PSpaceSingles`, `Precondition`, `UpdateKernels`, `UpdateLeft`
* `ccpy/lib/fortran/ccp3_adaptive_loops.f90`: `Argsort`, `Blocks`, `MomentSelection`
* `ccpy/lib/fortran/ccp3_full_correction.f90`: `Blocks`
* `ccpy/lib/fortran/ccp3_opt_loops.f90`: `Argsort`
* `ccpy/lib/fortran/ccsdpt_loops.f90`: `CcsdPt`
* `ccpy/lib/fortran/ccsdt_p_loops.f90`: `Argsort`, `Blocks`, `PSpace`, `PSpaceA`, `PSpaceB`, `PSpaceC`, `PSpaceD`, `PSpaceDoubles`, `PSpaceInter`, `PSpaceSingles`
* `ccpy/lib/fortran/clusteranalysis.f90`: `ClusterAnalysis`
* `ccpy/lib/fortran/combinatorics.f90`: `Combinatorics`, `Reorder`
* `ccpy/lib/fortran/crcc_loops.f90`: `CrCc23`
* `ccpy/lib/fortran/deaeom4_p_loops.f90`: `Blocks`
* `ccpy/lib/fortran/eaccp3_correction.f90`: `Blocks`
* `ccpy/lib/fortran/mbgf_loops.f90`: `SelfEnergy`
* `ccpy/lib/fortran/mbpt_loops.f90`: `Mp2`, `Mp3`
* `ccpy/lib/fortran/reorder.f90`: `Reorder`
* `ccpy/lib/fortran/vvvv_contraction.f90`: `VvvvContraction`
* `ccpy/lrcc/__init__.py`: `DriverParams`
* `ccpy/lrcc/lrccsd.py`: `LrCcsd`
* `ccpy/lrcc/lrccsd_intermediates.py`: `LrCcsd`
* `ccpy/mbpt/mbgf.py`: `SelfEnergy`
* `ccpy/mbpt/mbpt.py`: `Mp3`
* `ccpy/models/hilbert.py`: `Hilbert`
* `ccpy/models/integrals.py`: `Cholesky`, `Integrals`, `LrCcsd`, `TensorArrays`
* `ccpy/models/operators.py`: `Amplitudes`, `AttachEom`, `Ccsdt`, `DoubleAttachEom`, `Operators`, `TensorArrays`
* `ccpy/models/system.py`: `Excitations`, `IntegralFiles`, `System`
* `ccpy/moments/ccp3.py`: `MomentSelection`
* `ccpy/moments/crcc23.py`: `CcsdPt`, `CrCc23`
* `ccpy/utilities/active_space.py`: `ActiveSpace`, `Excitations`
* `ccpy/utilities/determinants.py`: `Determinants`, `Permutations`, `Selection`
* `ccpy/utilities/dumping.py`: `IntegralFiles`
* `ccpy/utilities/permutations.py`: `Permutations`
* `ccpy/utilities/pspace.py`: `CipsiReader`, `Excitations`, `PspaceUnion`, `Symmetry`
* `ccpy/utilities/qspace.py`: `Excitations`
* `ccpy/utilities/selection.py`: `Selection`
* `ccpy/utilities/symmetry.py`: `Excitations`, `Symmetry`, `System`
* `ccpy/utilities/utilities.py`: `GramSchmidt`, `Unravel`
* `devtools/order_fortran_dependencies.py`: `FortranDeps`

## Code that is not modelled

Printing, timing, file names, threads and memory layout; numpy, PySCF and BLAS themselves; old copies (`backups`, `*-bak*`, `*debug*`). Files of which no function is modelled:

* `ccpy`: `_version.py`
* `ccpy/cc`: `accd.py`, `accsd.py`, `accsdt_p.py`, `cc3.py`, `cc4-old.py`, `cc4.py`, `ccsdtq.py`, `eccc2.py`
* `ccpy/constants`: `constants.py`
* `ccpy/eom_guess`: `cisd.py`, `cisd_chol.py`, `cisd_matrix.py`, `eacisd.py`, `ipcisd.py`
* `ccpy/eomcc`: `deaeom4.py`, `deaeom4_intermediates.py`, `deaeom4_p.py`, `dipeom4.py`, `dipeom4_intermediates.py`, `dipeomccsdt.py`, `dipeomccsdta.py`, `eaeom3.py`, `eaeom3_intermediates.py`, `eaeom3_p.py`, `eaeomccsdt.py`, `eomcc2.py`, `eomcc3.py`, `eomcc3_intermediates.py`, `eomccsdt.py`, `eomccsdt_intermediates.py`, `eomccsdt_p.py`, `ipeom3.py`, `ipeom3_intermediates.py`, `ipeom3_p.py`, `ipeomccsdt.py`, `ipeomccsdt_p.py`, `ipeomccsdta.py`, `sfeomcc23.py`, `sfeomcc23_intermediates.py`, `teaeom2.py`
* `ccpy/extcorr`: `contractions_t3.py`, `contractions_t4.py`, `ecccp3.py`
* `ccpy/hbar`: `hbar_cc2.py`, `hbar_cc3.py`, `hbar_cc4.py`, `hbar_ccsd_chol.py`, `hbar_ccsdt.py`, `hbar_ccsdt1.py`, `hbar_ccsdt_p.py`, `hbar_ccsdta.py`
* `ccpy/interfaces`: `pyscf_tools.py`
* `ccpy/left`: `left_cc3.py`, `left_ccsdt.py`, `left_ccsdt_p.py`, `left_ccsdt_p_slow.py`, `left_eaeom3.py`, `left_eaeom3_p.py`, `left_eaeom_intermediates.py`, `left_ipeom3.py`, `left_ipeom3_p.py`, `left_ipeom_intermediates.py`
* `ccpy/lib`: `core.py`
* `ccpy/lib/fortran`: `active_pspace.f90`, `antisymmetrizers.f90`, `cc3_loops.f90`, `cc4_loops.f90`, `cc_loops.f90`, `cc_loops_t4.f90`, `ccp3_full_correction_high_mem.f90`, `ccp3_loops.f90`, `ccsdt_p_chol_loops.f90`, `cct3_loops.f90`, `constants.f90`, `crcc24_loops.f90`, `crcc24_opt_loops.f90`, `creacc_loops.f90`, `cripcc_loops.f90`, `deaeom4_p_intermediates.f90`, `eaccp3_loops.f90`, `eaeom3_p_intermediates.f90`, `eaeom3_p_loops.f90`, `ecccp3_loops.f90`, `eomcc_active_loops.f90`, `eomccp3_adaptive_loops.f90`, `eomccsdt_p_loops.f90`, `hbar_cc3.f90`, `hbar_ccsdt_p.f90`, `ipccp3_loops.f90`, `ipeom3_p_intermediates.f90`, `ipeom3_p_loops.f90`, `ipeomt_p_loops.f90`, `leftccsdt_p_intermediates.f90`, `leftccsdt_p_loops.f90`, `lefteaeom3_p_intermediates.f90`, `lefteaeom3_p_loops.f90`, `leftipeom3_p_intermediates.f90`, `leftipeom3_p_loops.f90`, `mrcc_loops.f90`
* `ccpy/lib/sort`: `qsort_module.f90`, `test.f90`
* `ccpy/moments`: `ccp3_chol.py`, `ccp4.py`, `cct3.py`, `cct3_chol.py`, `crcc23_chol.py`, `crcc24-old.py`, `crcc24.py`, `crcc34.py`, `creacc23.py`, `creomcc23.py`, `creomcc23_chol.py`, `cripcc23.py`, `dipeomccsdta_star.py`, `eaccp3.py`, `eaeomccsdta_star.py`, `eccc23.py`, `eomccsdta_star.py`, `ipccp3.py`, `ipeomccsdta_star.py`
* `ccpy/mrcc`: `effective_hamiltonian.py`, `mkmrccsd.py`, `normal_order.py`
* `ccpy/utilities`: `printing.py`

## Disagreements between the code and the properties

Each was found while proving; the theorem named here is a kernel-checked witness about the model, and the theorems with suffix `_partial` (or with an explicit hypothesis) state what does hold.

* `C04_out_of_range_fails`: about files with orbitals outside the correlated range (for example a CI expansion with more virtual orbitals than the coupled-cluster calculation): the first such determinant ends the reading with a printed message, and all later determinants are lost, although they are inside the range.
* `C04_phase_open_shell_fails`: with one alpha electron in orbital 1, the determinant `[3]` of coefficient 1 is `a†_3 a_1 |ref>` with sign `+1`, but the code stores `-1`.
* `C06_inconsistent_input_accepted`: a number of electrons and a multiplicity of different parity are accepted without an error, and one electron is lost.
* `C07_beta_virtual_fails`: for a doublet the beta virtual space comes out one orbital short.
* `C09_default_labels_fail`: the default orbital labels "A" are not in the irrep tables of groups other than C1, so computing the reference symmetry raises KeyError.
* `C10_active_middle_fails`: for active operators below the top rank: the recorded dimensions and the names no longer line up; loading back the flattened vector (of the advertised length) succeeds, but the triples come out with the wrong sizes, so that flattening again gives another vector.
* `C10_empty_pspace_fails`: a cluster operator with an empty P-space block (here no `aaa` triples, one `aab` triple) flattens to a vector longer than the advertised length, and loading that vector back moves amplitudes into the wrong block.
* `C10_three_electrons_fails`: removing or attaching three electrons gives an operator without amplitudes; flattening it raises.
* `C11_empty_start_fails`: if the `aaa` block starts empty, extending it to two triples leaves the advertised length one short of the vector.
* `C13_zero_index_fails`: for P lists written with indices counted from 0: no error is raised, the 0 silently addresses the last orbital, and a triple that is not in the P list goes missing from Q.
* `C18_bound_fails`: The bound read at the start of a routine is an arbitrary element of a buffer not yet sorted: with two rows wanted, 1 and 10 in a first routine make a second routine refuse 5, so 1 is chosen.
* `C18_overflow_fails`: The candidate that finds the buffer full is lost, whatever its size: of the contributions 1, 2, 10 with one row wanted and a buffer of two, the one chosen is 2.
* `C18_zero_error`: asking the selection for no rows reads outside the buffer.
* `C19_rhf_incomplete_fails`: With RHF symmetry the whole space is not reached: of 10100 triples the schedule 0, 1, 100 percent adds only 10098.
* `C19_zero_increment_fails`: With fewer than 100 triples a step of some percent asks for nothing, which the selection cannot do (`C18_zero_error`).
* `C20_extrapolation_fails`: A run that gets to the quadratic extrapolation with a correction of the same sign as, and more than a quarter of, the correlation energy raises ValueError and returns nothing.
* `C20_iteration_option_ignored_fails`: The limit is read when the driver is made: whatever `maximum_iterations` is set to afterwards, a run without percentages has up to 11 macro-iterations, and needs 11 to stop for that reason.
* `C22_constant_history_fails`: a history that has become stationary (all stored vectors equal, all residuals equal and nonzero) is not reproduced; the elimination divides by zero.
* `C22_zero_pivot_fails`: with one stored vector and a zero residual the system has exactly one solution (weight one), but elimination without row exchanges divides by zero.
* `C23_left_overlap_fails`: a left excited-state run that converges reports the overlap of the vector before the previous scaling, and returns a vector that is not scaled: here overlap 1 is reported for a vector whose overlap is 1/2; if the first iteration converges the reported overlap is 0.
* `C23_no_iterations_fails`: with no iteration allowed the returned energy is 0, whatever the guess.
* `C23_unconverged_energy_fails`: without convergence, the last extrapolation is applied to the returned vector after its energy was taken, so the returned energy (1/8) is not the energy of the returned vector (3/16).
* `C24_returns`: The solver returns whenever there is room for one vector and at least one iteration; otherwise it raises.
* `C24_two_restart_vectors`: Why the number of restart vectors has to be one (`solvers.py:111`, "> 1 does not work, why?"): with two of them the first diagonal element is not computed again after a restart.
* `C25_fails`: the block solver never returns with no root converged; when none converges it raises IndexError in the last allowed iteration instead of reporting it.
* `C25_one_root_fails`: an operator with one root that has not converged after three iterations.
* `C26_dependent`: For dependent columns a zero vector is normalised: the result contains NaN.
* `C28_from_empty_shape`: empty one-body blocks of an integral of order two are made with four axes.
* `C30_g_matrix_unavailable`: the Cholesky Hamiltonian leaves out the blocks that the one-particle G matrix needs, so that natural orbitals and the energy check raise.
* `C31_errors`: error branches: a negative tolerance runs past the last row and raises ValueError, and a matrix with negative diagonal elements only gives NaN.
* `C32_deleted_fails`: So a file of three orbitals cannot be read when one of them is to be deleted, even if it lists only the first two.
* `C32_orbital_energies_fails`: Lines `ε a 0 0 0` give the energy of orbital `a` and should leave the integrals as they are. The reader stores `ε` as the one-body integral of `a` and the last orbital.
* `C33_notation_fails`: The integrals in the order `⟨ij|kl⟩` that the program works with, which `transform_to_natorbs` passes to the writer (`/repo/ccpy/density/natural_orbitals.py:115`), do not come back, although they have the symmetry of real orbitals.
* `C34_3h2p_abb_fails`: for ionised operators fails in the `abb` case: for the valid one-element list `ipWitness` the result does not even hold the listed amplitude (5): its sign is flipped, because the second assignment exchanges the alpha hole with the first beta hole.
* `C37_fails`: The property is false for two states: the density of the first is overwritten by that of the second.
* `C39_four_ordered_branch_fails`: the branch meant for `p < q < r < s` starts its outer loop at the negative marker and writes outside the table (it is not used by any kernel).
* `C39_sort3_single_row_fails`: `sort3` (and `sort2`) never records the block of a list with a single row, because the closing write is guarded by `n3p > 1`. A P space of one triple is not taken out of the Q space by the CC(P;3) loops.
* `C39_sort4_no_rows_error`: sorting an empty list reads outside the array.
* `C40_repeated_rows_fails`: Distinctness is needed: with a repeated target row, a finished row is moved away again and the output rows are not the target rows, even though both lists hold the same rows.
* `C42_absent_coefficient`: Where a CI coefficient vanishes although the cluster amplitude does not, the analysis stores zero: the disconnected part is not subtracted there.
* `C45_binom_too_many_fails`: Choosing more items than there are is not answered with 0.
* `C45_zero_items_error`: the successor of the empty combination reads outside the array.
* `C46_cycle_diverges`: on a cycle the ordering loop does not end (the cycle check before it excludes this).
* `C46_own_module_rejected`: a file that uses a module which it defines itself is rejected as a circular dependency.
* `C47_recursion_limit`: chains deeper than the recursion limit raise RecursionError.
* `C49_open_shell_fails`: for open shells: `get_determinant` always starts from the determinant with equal numbers of alpha and beta electrons (or one more alpha electron), so that the assertions of the constructor fail.
* `C49_roundtrip_fails`: the excitation read from a determinant, applied to the reference, gives another determinant.
* `C49_slater_fails`: for two electrons: the element between the reference and a single excitation raises ValueError, because `squeeze` removes the axes of the single occupied orbital.
* `C50_continued_fraction_fails`: The continued fraction does not reproduce the partial sum it extrapolates, even when the last correction vanishes: from -100, -101, -101 it gives -10000/99.
* `C50_no_correction_fails`: When the last correction vanishes (nothing left to add) the quadratic approximant raises.
* `C50_unknown_name_fails`: An unknown name is silently accepted and gives energy zero.
* `C51_leftover_fails`: The full property is also false without spin flip: CCSDT after CCSD on the same driver iterates on the amplitudes of order 2 with a residual of order 3.
* `C51_spinflip_fails`: The full property is false: spin-flip EOM-CC of the second method after a CCSD run uses order 2 instead of 3, and as the first run of a driver order 0.
* `C51_spinflip_first_fails`: spin-flip EOM-CC as the first run of a driver uses order 0.
* `C54_open_shell_bound_fails`: for open shells: the upper bound tested for alpha particles is the number of unoccupied beta orbitals, so an alpha orbital just above the range is not reported as out of range but raises an IndexError.
* `C54_repetition_fails`: when a determinant is repeated: its row is returned twice.
* `C54_stops_fails`: for files that hold a determinant outside the orbital range: a later physical triple is lost and no error is reported.
* `C55_extra_electrons_fails`: when the determinant has more electrons than the system: the highest ones are dropped without an error.
* `C55_open_core_fails`: when a frozen orbital is not doubly occupied: the first entries are dropped whatever they are, and a different determinant is written without an error.
* `C56_no_states_fails`: when no excited state is requested: merging the (six-column) ground-state selection with the empty list raises.
* `C56_single_state_fails`: for one state: repeated rows are not merged.
* `C59_attachment_fails`: for an attachment to a doublet: a triplet is given `S² = 1`, not 2.
* `C59_pair_attachment_fails`: for a pair attached to a doublet, one electron of which joins the unpaired one: the doublet is given `S² = 7/4`, not 3/4.
* `C59_pair_removal_fails`: for a pair removed from a doublet: the doublet is given `S² = 0`, not 3/4.
* `C59_spin_flip_fails`: for spin flips of a triplet from its doubly occupied orbital to an empty one: the configuration with four unpaired electrons is given `S² = 0`, while its expectation value is 2.
* `C69_symmetry_fails`: One iteration from zero amplitudes does not keep `t_ab[a, b, i, j] = t_ab[b, a, j, i]`: the new amplitudes of spin up enter the equation of the opposite spins together with the old ones of spin down. So C69 describes the solutions, not the amplitudes of an unfinished iteration.
* `C81_fixed_point_fails`: For a closed shell whose amplitudes solve the CC2 equations, the unrestricted iteration keeps them and the restricted iteration, which the driver uses by default, does not.
* `C85_documented_fails`: The formula of the comment does not hold for a reference that does not satisfy Brillouin's theorem.
* `C87_scatter2h_fails`: The coefficients of the two-hole guess of an open-shell reference do not reach their determinants: the numbering of the active pairs uses `nacto + multiplicity - 1` orbitals of the first spin (dipcis.py:85), but `scatter` (dipcis.py:72) takes `nacto`, so that for a triplet with one active orbital the last pair gets the coefficient of the first.
* `C87_scatter2p_fails`: The coefficients of the two-particle guess of an open-shell reference do not reach their determinants: the numbering of the active pairs uses `nactu + multiplicity - 1` orbitals of the second spin (deacis.py:88), but `scatter` (deacis.py:72) takes `nactu`, so that for a triplet with one active orbital the coefficients of the pairs `(0, 1)` and `(0, 2)` are dropped.
* `C88_index_fails`: `vvvv_index` uses `d` where the number of the pair `(c,d)` needs `c`: of four orbitals the integrals `<12||14>` and `<12||23>` get the same place. The routine is only called by `contract_vt2_pppp`, whose accumulating statement is commented out.
* `C89_biorthonormal_fails`: The program divides by the absolute value of the product of the left and the right vector. The signs that an eigensolver gives to left and right vectors are independent, and with a product of the other sign the vectors are not biorthonormal: already for one orbital the transformed one-body integral is the negative of the integral.
* `C90_compiled_beta_fails`: for the compiled routine and spin beta: it returns the zero matrix.
* `C90_open_shell_fails`: for open shells: the loops over orbitals of spin beta on lines 83 and 89 of mbgf.py run over the numbers of alpha orbitals, so the python routine raises an `IndexError` whenever there are more occupied, or more unoccupied, orbitals of spin alpha.
* `C90_python_beta_fails`: for the other elements of spin beta: line 108 of mbgf.py reads `vvoo[e, f, j, n]` where `vvoo[e, f, i, n]` is meant, so the matrix of spin beta differs from that of spin alpha even for closed shells, where the comment on line 33 says that they are the same.
* `C90_roots_fails`: for more roots than there are occupied orbitals: the index of the orbital becomes negative and counts from the end, so that the "root" is the energy of the highest occupied orbital with the element of the highest unoccupied orbital of the self-energy, which is zero; it is reported as converged with the estimate of Koopmans.
* `C90_unoccupied_fails`: for unoccupied orbitals: both routines allocate the matrix of all orbitals, and the documentation promises "all p,q", but the elements with an unoccupied orbital stay zero.
* `C91_buffer_fails`: The decomposition does not return for all integrals: with `2 cmax - 1` or more basis functions (19 for the default `cmax`) there are integrals for which the buffer is too short at any small tolerance, and the function raises an `IndexError` rather than a message about `cmax`.
* `C92_2b_fails`: `update_t2b` of linear-response CCSD forms the intermediates for spin down from the blocks of the property for spin up: for a property that depends on the spin the residual is not the projection.
* `C92_shape_fails`: In `update_t2b` of linear-response CCSD the shapes do not fit: `I1B_oo` is formed by adding an array over the occupied orbitals with spin up (`W.a.oo`) to one over the occupied orbitals with spin down, so that `numpy` cannot evaluate the function for all open-shell systems.

Seen while reading, not (or only indirectly) modelled:

* `drivers/driver.py` `run_cc`, `run_ccp` ignore the convergence flag of the solver; `run_ccp3` compares the default `state_index` (a list) with 0, so the excited-state branch is taken and raises.
* `lib/fortran/cc_loops2.f90`: the `update_r` family ignores its `shift` argument (stated in C57); `update_l_2h1p` writes the residual of the updated vector.
* `eomcc/teaeom2.py` calls `cc_loops2.update_r_3p`, which does not exist, and its method has no entry in `set_operator_params`; `extcorr/external_correction.py` refers to `cluster_analysis_t4_full`, which does not exist.
* `cholesky/cholesky.py` `cholesky_eri_from_pyscf`: a print statement with a wrong format raises TypeError on every call.
* `cc/ccsd.py`: within one iteration the doubles are updated with the new singles; both agree at a solution (C62).
* `hbar/hbar_ccsd.py`: `H = H0` is an alias, so building the transformed Hamiltonian overwrites its input.
* `mrcc` modules import names that do not exist.
* `interfaces/qmc` reader in `utilities/pspace.py` drops the spin of the excitations it reads.
