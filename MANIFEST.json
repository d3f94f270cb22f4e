{
 "claims": [
  {
   "property": "C01",
   "status": "proved",
   "theorems": [
    "Ccpy.Permutations.C01_parity_is_sign",
    "Ccpy.Permutations.C01_parity_multiplicative"
   ],
   "note": ""
  },
  {
   "property": "C02",
   "status": "proved",
   "theorems": [
    "Ccpy.Permutations.C02_lineup"
   ],
   "note": ""
  },
  {
   "property": "C03",
   "status": "proved",
   "theorems": [
    "Ccpy.Determinants.C03_excitation_extraction",
    "Ccpy.Determinants.C03_spincase",
    "Ccpy.Determinants.C03_spatial_index"
   ],
   "note": ""
  },
  {
   "property": "C04",
   "status": "partial",
   "theorems": [
    "Ccpy.ExternalCorrection.C04_stored_index",
    "Ccpy.ExternalCorrection.C04_phase_closed_shell_partial",
    "Ccpy.ExternalCorrection.C04_phase_doublet",
    "Ccpy.ExternalCorrection.C04_phase_open_shell_fails",
    "Ccpy.ExternalCorrection.C04_stored",
    "Ccpy.ExternalCorrection.C04_file",
    "Ccpy.ExternalCorrection.C04_out_of_range_fails"
   ],
   "note": "Closed-shell references proved for all spin cases through quadruples; for doublets the code stores the opposite sign at odd rank (proved), so the general claim is refuted with a witness."
  },
  {
   "property": "C05",
   "status": "proved",
   "theorems": [
    "Ccpy.ExternalCorrection.C05_insert_aaa",
    "Ccpy.ExternalCorrection.C05_insert_bbb",
    "Ccpy.ExternalCorrection.C05_insert_aab",
    "Ccpy.ExternalCorrection.C05_insert_abb",
    "Ccpy.ExternalCorrection.C05_insert_doubles",
    "Ccpy.ExternalCorrection.C05_insert_singles",
    "Ccpy.ExternalCorrection.C05_insert_wrong_length"
   ],
   "note": ""
  },
  {
   "property": "C06",
   "status": "proved",
   "theorems": [
    "Ccpy.System.C06_counts",
    "Ccpy.System.C06_default_occupation",
    "Ccpy.System.C06_inconsistent_input_accepted"
   ],
   "note": ""
  },
  {
   "property": "C07",
   "status": "partial",
   "theorems": [
    "Ccpy.System.C07_active_partition_partial",
    "Ccpy.System.C07_beta_virtual_fails",
    "Ccpy.System.C07_beta_virtual_error",
    "Ccpy.System.C07_full_active"
   ],
   "note": "Partial: restricted as their docstrings say: C07_active_partition_partial. The code violates the full statement, with a concrete witness in C07_beta_virtual_fails; see Disagreements in DESIGN.md."
  },
  {
   "property": "C08",
   "status": "proved",
   "theorems": [
    "Ccpy.System.C08_irrep_xor",
    "Ccpy.System.C08_sym_table"
   ],
   "note": ""
  },
  {
   "property": "C09",
   "status": "proved",
   "theorems": [
    "Ccpy.System.C09_reference_symmetry",
    "Ccpy.System.C09_closed_shell",
    "Ccpy.System.C09_reference_symmetry_uhf",
    "Ccpy.System.C09_default_labels_fail"
   ],
   "note": ""
  },
  {
   "property": "C10",
   "status": "partial",
   "theorems": [
    "Ccpy.Operators.C10_cluster_roundtrip_partial",
    "Ccpy.Operators.C10_full_roundtrip",
    "Ccpy.Operators.C10_fock_roundtrip_partial",
    "Ccpy.Operators.C10_spinflip_roundtrip",
    "Ccpy.Operators.C10_partial_load",
    "Ccpy.Operators.C10_shapes",
    "Ccpy.Operators.C10_storage",
    "Ccpy.Operators.C10_empty_pspace_fails",
    "Ccpy.Operators.C10_active_middle_fails",
    "Ccpy.Operators.C10_three_electrons_fails"
   ],
   "note": "Partial: restricted as their docstrings say: C10_cluster_roundtrip_partial, C10_fock_roundtrip_partial. The code violates the full statement, with a concrete witness in C10_empty_pspace_fails, C10_active_middle_fails, C10_three_electrons_fails; see Disagreements in DESIGN.md."
  },
  {
   "property": "C11",
   "status": "partial",
   "theorems": [
    "Ccpy.Operators.C11_extend_partial",
    "Ccpy.Operators.C11_wrong_length",
    "Ccpy.Operators.C11_empty_start_fails"
   ],
   "note": "Partial: restricted as their docstrings say: C11_extend_partial. The code violates the full statement, with a concrete witness in C11_empty_start_fails; see Disagreements in DESIGN.md."
  },
  {
   "property": "C12",
   "status": "proved",
   "theorems": [
    "Ccpy.Excitations.C12_active_triples"
   ],
   "note": ""
  },
  {
   "property": "C13",
   "status": "partial",
   "theorems": [
    "Ccpy.Excitations.C13_qspace",
    "Ccpy.Excitations.C13_active_chain",
    "Ccpy.Excitations.C13_active_partition",
    "Ccpy.Excitations.C13_out_of_range_error",
    "Ccpy.Excitations.C13_zero_index_fails"
   ],
   "note": "Partial: The code violates the full statement, with a concrete witness in C13_zero_index_fails; see Disagreements in DESIGN.md."
  },
  {
   "property": "C14",
   "status": "proved",
   "theorems": [
    "Ccpy.Excitations.C14_placeholder_not_excitation",
    "Ccpy.Excitations.C14_first_row_test"
   ],
   "note": ""
  },
  {
   "property": "C15",
   "status": "proved",
   "theorems": [
    "Ccpy.Excitations.C15_3p2h",
    "Ccpy.Excitations.C15_3h2p",
    "Ccpy.Excitations.C15_4p2h",
    "Ccpy.Excitations.C15_uneven_error"
   ],
   "note": ""
  },
  {
   "property": "C16",
   "status": "proved",
   "theorems": [
    "Ccpy.Excitations.C16_singles",
    "Ccpy.Excitations.C16_doubles",
    "Ccpy.Excitations.C16_triples",
    "Ccpy.Excitations.C16_1p",
    "Ccpy.Excitations.C16_2p1h",
    "Ccpy.Excitations.C16_3p2h",
    "Ccpy.Excitations.C16_triples_lists",
    "Ccpy.Excitations.C16_in_pspace",
    "Ccpy.Excitations.C16_bad_irrep_error"
   ],
   "note": ""
  },
  {
   "property": "C17",
   "status": "proved",
   "theorems": [
    "Ccpy.Excitations.C17_growth",
    "Ccpy.Excitations.C17_history",
    "Ccpy.Excitations.C17_rhf_mirror",
    "Ccpy.Excitations.C17_no_rows_error"
   ],
   "note": ""
  },
  {
   "property": "C18",
   "status": "partial",
   "theorems": [
    "Ccpy.MomentSelection.C18_selected",
    "Ccpy.MomentSelection.C18_largest_partial",
    "Ccpy.MomentSelection.C18_single_call",
    "Ccpy.MomentSelection.C18_lost_from_pool",
    "Ccpy.MomentSelection.C18_zero_error",
    "Ccpy.MomentSelection.C18_overflow_fails",
    "Ccpy.MomentSelection.C18_bound_fails"
   ],
   "note": "Partial: restricted as their docstrings say: C18_largest_partial. The code violates the full statement, with a concrete witness in C18_overflow_fails, C18_bound_fails; see Disagreements in DESIGN.md."
  },
  {
   "property": "C19",
   "status": "partial",
   "theorems": [
    "Ccpy.Adaptive.C19_partial_sums",
    "Ccpy.Adaptive.C19_whole_space",
    "Ccpy.Adaptive.C19_within_space",
    "Ccpy.Adaptive.C19_rhf_within_space",
    "Ccpy.Adaptive.C19_plan",
    "Ccpy.Adaptive.C19_fixed_scheme",
    "Ccpy.Adaptive.C19_fixed_scheme_singles",
    "Ccpy.Adaptive.C19_empty_schedule_error",
    "Ccpy.Adaptive.C19_rhf_incomplete_fails",
    "Ccpy.Adaptive.C19_zero_increment_fails"
   ],
   "note": "Partial: The code violates the full statement, with a concrete witness in C19_rhf_incomplete_fails, C19_zero_increment_fails; see Disagreements in DESIGN.md."
  },
  {
   "property": "C20",
   "status": "partial",
   "theorems": [
    "Ccpy.Adaptive.C20_stops",
    "Ccpy.Adaptive.C20_selection",
    "Ccpy.Adaptive.C20_last_selection_unused",
    "Ccpy.Adaptive.C20_grows",
    "Ccpy.Adaptive.C20_determinants",
    "Ccpy.Adaptive.C20_start",
    "Ccpy.Adaptive.C20_extrapolation_fails",
    "Ccpy.Adaptive.C20_cholesky_error",
    "Ccpy.Adaptive.C20_iteration_option_ignored_fails"
   ],
   "note": "Partial: The code violates the full statement, with a concrete witness in C20_extrapolation_fails, C20_iteration_option_ignored_fails; see Disagreements in DESIGN.md."
  },
  {
   "property": "C21",
   "status": "proved",
   "theorems": [
    "Ccpy.Jacobi.C21_history",
    "Ccpy.Jacobi.C21_schedule",
    "Ccpy.Jacobi.C21_errors"
   ],
   "note": ""
  },
  {
   "property": "C22",
   "status": "partial",
   "theorems": [
    "Ccpy.Diis.C22_solver",
    "Ccpy.Diis.C22_solver_undefined",
    "Ccpy.Diis.C22_affine",
    "Ccpy.Diis.C22_weights",
    "Ccpy.Diis.C22_defined",
    "Ccpy.Diis.C22_zero_pivot_fails",
    "Ccpy.Diis.C22_constant_history_fails"
   ],
   "note": "Partial: The code violates the full statement, with a concrete witness in C22_zero_pivot_fails, C22_constant_history_fails; see Disagreements in DESIGN.md."
  },
  {
   "property": "C23",
   "status": "partial",
   "theorems": [
    "Ccpy.Jacobi.C23_iterations",
    "Ccpy.Jacobi.C23_convergence",
    "Ccpy.Jacobi.C23_result_partial",
    "Ccpy.Jacobi.C23_unconverged_partial",
    "Ccpy.Jacobi.C23_unconverged_energy_fails",
    "Ccpy.Jacobi.C23_no_iterations_fails",
    "Ccpy.Jacobi.C23_left_overlap_fails"
   ],
   "note": "Partial: restricted as their docstrings say: C23_result_partial, C23_unconverged_partial. The code violates the full statement, with a concrete witness in C23_unconverged_energy_fails, C23_no_iterations_fails, C23_left_overlap_fails; see Disagreements in DESIGN.md."
  },
  {
   "property": "C24",
   "status": "proved",
   "theorems": [
    "Ccpy.Davidson.C24_projected",
    "Ccpy.Davidson.C24_residual",
    "Ccpy.Davidson.C24_converged",
    "Ccpy.Davidson.C24_returns",
    "Ccpy.Davidson.C24_two_restart_vectors",
    "Ccpy.Davidson.C24_block_projected"
   ],
   "note": ""
  },
  {
   "property": "C25",
   "status": "partial",
   "theorems": [
    "Ccpy.Davidson.C25_converged",
    "Ccpy.Davidson.C25_workspace_partial",
    "Ccpy.Davidson.C25_fails",
    "Ccpy.Davidson.C25_one_root_fails"
   ],
   "note": "Partial: restricted as their docstrings say: C25_workspace_partial. The code violates the full statement, with a concrete witness in C25_fails, C25_one_root_fails; see Disagreements in DESIGN.md."
  },
  {
   "property": "C26",
   "status": "proved",
   "theorems": [
    "Ccpy.GramSchmidt.C26_orthonormal",
    "Ccpy.GramSchmidt.C26_dependent"
   ],
   "note": ""
  },
  {
   "property": "C27",
   "status": "proved",
   "theorems": [
    "Ccpy.Integrals.C27_build_v",
    "Ccpy.Integrals.C27_antisymmetric",
    "Ccpy.Integrals.C27_exchange",
    "Ccpy.Integrals.C27_hermitian"
   ],
   "note": ""
  },
  {
   "property": "C28",
   "status": "proved",
   "theorems": [
    "Ccpy.Integrals.C28_blocks",
    "Ccpy.Integrals.C28_partition",
    "Ccpy.Integrals.C28_hamiltonian",
    "Ccpy.Integrals.C28_uhf_hamiltonian",
    "Ccpy.Integrals.C28_from_empty_shape"
   ],
   "note": ""
  },
  {
   "property": "C29",
   "status": "proved",
   "theorems": [
    "Ccpy.Integrals.C29_fock",
    "Ccpy.Integrals.C29_energy",
    "Ccpy.Integrals.C29_energy_from_fock",
    "Ccpy.Integrals.C29_frozen_core",
    "Ccpy.Integrals.C29_unsorted",
    "Ccpy.Integrals.C29_g_matrix",
    "Ccpy.Integrals.C29_core_fock"
   ],
   "note": ""
  },
  {
   "property": "C30",
   "status": "proved",
   "theorems": [
    "Ccpy.Integrals.C30_fock",
    "Ccpy.Integrals.C30_energy",
    "Ccpy.Integrals.C30_onebody",
    "Ccpy.Integrals.C30_twobody",
    "Ccpy.Integrals.C30_blocks",
    "Ccpy.Integrals.C30_missing",
    "Ccpy.Integrals.C30_g_matrix_unavailable",
    "Ccpy.Integrals.C30_batches"
   ],
   "note": ""
  },
  {
   "property": "C31",
   "status": "proved",
   "theorems": [
    "Ccpy.PivotedCholesky.C31_pivots",
    "Ccpy.PivotedCholesky.C31_diagonal",
    "Ccpy.PivotedCholesky.C31_psd",
    "Ccpy.PivotedCholesky.C31_errors"
   ],
   "note": ""
  },
  {
   "property": "C32",
   "status": "partial",
   "theorems": [
    "Ccpy.IntegralFiles.C32_load_partial",
    "Ccpy.IntegralFiles.C32_symmetry_partial",
    "Ccpy.IntegralFiles.C32_no_constant",
    "Ccpy.IntegralFiles.C32_orbital_out_of_range",
    "Ccpy.IntegralFiles.C32_orbital_energies_fails",
    "Ccpy.IntegralFiles.C32_deleted",
    "Ccpy.IntegralFiles.C32_deleted_fails"
   ],
   "note": "Partial: restricted as their docstrings say: C32_load_partial, C32_symmetry_partial. The code violates the full statement, with a concrete witness in C32_orbital_energies_fails, C32_deleted_fails; see Disagreements in DESIGN.md."
  },
  {
   "property": "C33",
   "status": "partial",
   "theorems": [
    "Ccpy.IntegralFiles.C33_onebody",
    "Ccpy.IntegralFiles.C33_onebody_triangle",
    "Ccpy.IntegralFiles.C33_twobody_partial",
    "Ccpy.IntegralFiles.C33_notation_fails"
   ],
   "note": "Partial: restricted as their docstrings say: C33_twobody_partial. The code violates the full statement, with a concrete witness in C33_notation_fails; see Disagreements in DESIGN.md."
  },
  {
   "property": "C34",
   "status": "partial",
   "theorems": [
    "Ccpy.Unravel.C34_triples",
    "Ccpy.Unravel.C34_convert",
    "Ccpy.Unravel.C34_3p2h",
    "Ccpy.Unravel.C34_3h2p_partial",
    "Ccpy.Unravel.C34_3h2p_abb_fails",
    "Ccpy.Unravel.C34_errors"
   ],
   "note": "Partial: restricted as their docstrings say: C34_3h2p_partial. The code violates the full statement, with a concrete witness in C34_3h2p_abb_fails; see Disagreements in DESIGN.md."
  },
  {
   "property": "C35",
   "status": "proved",
   "theorems": [
    "Ccpy.Amplitudes.C35_doubles",
    "Ccpy.Amplitudes.C35_full",
    "Ccpy.Amplitudes.C35_packed",
    "Ccpy.Amplitudes.C35_errors",
    "Ccpy.Amplitudes.C35_ip",
    "Ccpy.Amplitudes.C35_ea"
   ],
   "note": ""
  },
  {
   "property": "C36",
   "status": "proved",
   "theorems": [
    "Ccpy.Amplitudes.C36_trace"
   ],
   "note": ""
  },
  {
   "property": "C37",
   "status": "partial",
   "theorems": [
    "Ccpy.DriverArrays.C37_last_state",
    "Ccpy.DriverArrays.C37_one_state_partial",
    "Ccpy.DriverArrays.C37_fails",
    "Ccpy.DriverArrays.C37_out_of_range"
   ],
   "note": "Partial: restricted as their docstrings say: C37_one_state_partial. The code violates the full statement, with a concrete witness in C37_fails; see Disagreements in DESIGN.md."
  },
  {
   "property": "C38",
   "status": "proved",
   "theorems": [
    "Ccpy.Sorting.C38_argsort",
    "Ccpy.Sorting.C38_argsort_descend"
   ],
   "note": ""
  },
  {
   "property": "C39",
   "status": "partial",
   "theorems": [
    "Ccpy.Sorting.C39_table4",
    "Ccpy.Sorting.C39_table3",
    "Ccpy.Sorting.C39_table2",
    "Ccpy.Sorting.C39_nloc_triple",
    "Ccpy.Sorting.C39_nloc_pairs",
    "Ccpy.Sorting.C39_nloc_pair",
    "Ccpy.Sorting.C39_nloc_free",
    "Ccpy.Sorting.C39_nloc_triple3",
    "Ccpy.Sorting.C39_nloc_pair3",
    "Ccpy.Sorting.C39_four_ordered_branch_fails",
    "Ccpy.Sorting.C39_sort4",
    "Ccpy.Sorting.C39_sort4_placeholder",
    "Ccpy.Sorting.C39_sort4_no_rows_error",
    "Ccpy.Sorting.C39_sort3_partial",
    "Ccpy.Sorting.C39_sort3_single_row_fails"
   ],
   "note": "Partial: restricted as their docstrings say: C39_sort3_partial. The code violates the full statement, with a concrete witness in C39_four_ordered_branch_fails, C39_sort3_single_row_fails; see Disagreements in DESIGN.md."
  },
  {
   "property": "C40",
   "status": "partial",
   "theorems": [
    "Ccpy.Reorder.C40_pairs_preserved",
    "Ccpy.Reorder.C40_target_order",
    "Ccpy.Reorder.C40_repeated_rows_fails"
   ],
   "note": "Partial: The code violates the full statement, with a concrete witness in C40_repeated_rows_fails; see Disagreements in DESIGN.md."
  },
  {
   "property": "C41",
   "status": "proved",
   "theorems": [
    "Ccpy.Reorder.C41_reorder_stripe",
    "Ccpy.Reorder.C41_reorder_stripe_total",
    "Ccpy.Reorder.C41_sum_stripe",
    "Ccpy.Reorder.C41_flat_injective",
    "Ccpy.Reorder.C41_reorder_then_sum",
    "Ccpy.Reorder.C41_permute_inverse",
    "Ccpy.Reorder.C41_reorder4",
    "Ccpy.Reorder.C41_sum4"
   ],
   "note": ""
  },
  {
   "property": "C42",
   "status": "proved",
   "theorems": [
    "Ccpy.ClusterAnalysis.C42_t2a",
    "Ccpy.ClusterAnalysis.C42_t2b",
    "Ccpy.ClusterAnalysis.C42_t2c",
    "Ccpy.ClusterAnalysis.C42_t3a",
    "Ccpy.ClusterAnalysis.C42_t3b",
    "Ccpy.ClusterAnalysis.C42_t3c",
    "Ccpy.ClusterAnalysis.C42_t3d",
    "Ccpy.ClusterAnalysis.C42_t4_aaaa",
    "Ccpy.ClusterAnalysis.C42_t4_aaab",
    "Ccpy.ClusterAnalysis.C42_t4_aabb",
    "Ccpy.ClusterAnalysis.C42_t4_abbb",
    "Ccpy.ClusterAnalysis.C42_t4_bbbb",
    "Ccpy.ClusterAnalysis.C42_every_wave_function",
    "Ccpy.ClusterAnalysis.C42_absent_coefficient"
   ],
   "note": ""
  },
  {
   "property": "C43",
   "status": "proved",
   "theorems": [
    "Ccpy.UpdateKernels.C43_t1a",
    "Ccpy.UpdateKernels.C43_t1b",
    "Ccpy.UpdateKernels.C43_t2a",
    "Ccpy.UpdateKernels.C43_t2b",
    "Ccpy.UpdateKernels.C43_t2c",
    "Ccpy.UpdateKernels.C43_t3a",
    "Ccpy.UpdateKernels.C43_t3b",
    "Ccpy.UpdateKernels.C43_t3c",
    "Ccpy.UpdateKernels.C43_t3d",
    "Ccpy.UpdateKernels.C43_fixed_point"
   ],
   "note": ""
  },
  {
   "property": "C44",
   "status": "proved",
   "theorems": [
    "Ccpy.Mp2.C44_mp2"
   ],
   "note": ""
  },
  {
   "property": "C45",
   "status": "partial",
   "theorems": [
    "Ccpy.Combinatorics.C45_binom",
    "Ccpy.Combinatorics.C45_binom_too_many_fails",
    "Ccpy.Combinatorics.C45_factorial",
    "Ccpy.Combinatorics.C45_next_combination",
    "Ccpy.Combinatorics.C45_all_combinations",
    "Ccpy.Combinatorics.C45_combinations_end",
    "Ccpy.Combinatorics.C45_zero_items_error"
   ],
   "note": "Partial: The code violates the full statement, with a concrete witness in C45_binom_too_many_fails; see Disagreements in DESIGN.md."
  },
  {
   "property": "C46",
   "status": "proved",
   "theorems": [
    "Ccpy.FortranDeps.C46_order",
    "Ccpy.FortranDeps.C46_cycle_diverges",
    "Ccpy.FortranDeps.C46_main",
    "Ccpy.FortranDeps.C46_own_module_rejected"
   ],
   "note": ""
  },
  {
   "property": "C47",
   "status": "proved",
   "theorems": [
    "Ccpy.FortranDeps.C47_sound",
    "Ccpy.FortranDeps.C47_none",
    "Ccpy.FortranDeps.C47_decides",
    "Ccpy.FortranDeps.C47_recursion_limit",
    "Ccpy.FortranDeps.C47_missing_vertex"
   ],
   "note": ""
  },
  {
   "property": "C48",
   "status": "proved",
   "theorems": [
    "Ccpy.SpinMatrix.C48_cis",
    "Ccpy.SpinMatrix.C48_cis_symmetry",
    "Ccpy.SpinMatrix.C48_agree",
    "Ccpy.SpinMatrix.C48_symmetric",
    "Ccpy.SpinMatrix.C48_singlet_triplet",
    "Ccpy.SpinMatrix.C48_removal"
   ],
   "note": ""
  },
  {
   "property": "C49",
   "status": "partial",
   "theorems": [
    "Ccpy.Hilbert.C49_determinant",
    "Ccpy.Hilbert.C49_determinant_rejects",
    "Ccpy.Hilbert.C49_excitation",
    "Ccpy.Hilbert.C49_slater_partial",
    "Ccpy.Hilbert.C49_slater_fails",
    "Ccpy.Hilbert.C49_bitstring",
    "Ccpy.Hilbert.C49_bitstring_injective",
    "Ccpy.Hilbert.C49_roundtrip_partial",
    "Ccpy.Hilbert.C49_roundtrip_fails",
    "Ccpy.Hilbert.C49_open_shell_fails"
   ],
   "note": "Partial: restricted as their docstrings say: C49_slater_partial, C49_roundtrip_partial. The code violates the full statement, with a concrete witness in C49_slater_fails, C49_roundtrip_fails, C49_open_shell_fails; see Disagreements in DESIGN.md."
  },
  {
   "property": "C50",
   "status": "partial",
   "theorems": [
    "Ccpy.Goodson.C50_quadratic",
    "Ccpy.Goodson.C50_rational",
    "Ccpy.Goodson.C50_rational_series",
    "Ccpy.Goodson.C50_continued_fraction_partial",
    "Ccpy.Goodson.C50_continued_fraction_fails",
    "Ccpy.Goodson.C50_no_correction_fails",
    "Ccpy.Goodson.C50_large_correction_error",
    "Ccpy.Goodson.C50_no_correlation_error",
    "Ccpy.Goodson.C50_unknown_name_fails"
   ],
   "note": "Partial: restricted as their docstrings say: C50_continued_fraction_partial. The code violates the full statement, with a concrete witness in C50_continued_fraction_fails, C50_no_correction_fails, C50_unknown_name_fails; see Disagreements in DESIGN.md."
  },
  {
   "property": "C51",
   "status": "partial",
   "theorems": [
    "Ccpy.DriverParams.C51_history_partial",
    "Ccpy.DriverParams.C51_spinflip_fails",
    "Ccpy.DriverParams.C51_spinflip_first_fails",
    "Ccpy.DriverParams.C51_leftover_fails",
    "Ccpy.DriverParams.C51_unknown_method"
   ],
   "note": "Partial: restricted as their docstrings say: C51_history_partial. The code violates the full statement, with a concrete witness in C51_spinflip_fails, C51_spinflip_first_fails, C51_leftover_fails; see Disagreements in DESIGN.md."
  },
  {
   "property": "C52",
   "status": "proved",
   "theorems": [
    "Ccpy.DriverArrays.C52_rows",
    "Ccpy.DriverArrays.C52_closed",
    "Ccpy.DriverArrays.C52_lengths",
    "Ccpy.DriverArrays.C52_unrestricted"
   ],
   "note": ""
  },
  {
   "property": "C53",
   "status": "proved",
   "theorems": [
    "Ccpy.ActiveSpace.C53_zero",
    "Ccpy.ActiveSpace.C53_zero_antisymmetric",
    "Ccpy.ActiveSpace.C53_fill_sound",
    "Ccpy.ActiveSpace.C53_fill_complete",
    "Ccpy.ActiveSpace.C53_agree"
   ],
   "note": ""
  },
  {
   "property": "C54",
   "status": "partial",
   "theorems": [
    "Ccpy.CipsiReader.C54_read_partial",
    "Ccpy.CipsiReader.C54_distinct",
    "Ccpy.CipsiReader.C54_counts",
    "Ccpy.CipsiReader.C54_repetition_fails",
    "Ccpy.CipsiReader.C54_truncates",
    "Ccpy.CipsiReader.C54_stops_fails",
    "Ccpy.CipsiReader.C54_unbalanced",
    "Ccpy.CipsiReader.C54_open_shell_bound_fails"
   ],
   "note": "Partial: restricted as their docstrings say: C54_read_partial. The code violates the full statement, with a concrete witness in C54_repetition_fails, C54_stops_fails, C54_open_shell_bound_fails; see Disagreements in DESIGN.md."
  },
  {
   "property": "C55",
   "status": "partial",
   "theorems": [
    "Ccpy.Qp2.C55_convert",
    "Ccpy.Qp2.C55_frozen_partial",
    "Ccpy.Qp2.C55_too_few",
    "Ccpy.Qp2.C55_open_core_fails",
    "Ccpy.Qp2.C55_extra_electrons_fails",
    "Ccpy.Qp2.C55_hex",
    "Ccpy.Qp2.C55_records"
   ],
   "note": "Partial: restricted as their docstrings say: C55_frozen_partial. The code violates the full statement, with a concrete witness in C55_open_core_fails, C55_extra_electrons_fails; see Disagreements in DESIGN.md."
  },
  {
   "property": "C56",
   "status": "partial",
   "theorems": [
    "Ccpy.PspaceUnion.C56_union",
    "Ccpy.PspaceUnion.C56_commutes",
    "Ccpy.PspaceUnion.C56_mismatch",
    "Ccpy.PspaceUnion.C56_states",
    "Ccpy.PspaceUnion.C56_state_order",
    "Ccpy.PspaceUnion.C56_any_states_partial",
    "Ccpy.PspaceUnion.C56_single_state_fails",
    "Ccpy.PspaceUnion.C56_ground",
    "Ccpy.PspaceUnion.C56_last",
    "Ccpy.PspaceUnion.C56_no_states_fails"
   ],
   "note": "Partial: restricted as their docstrings say: C56_any_states_partial. The code violates the full statement, with a concrete witness in C56_single_state_fails, C56_no_states_fails; see Disagreements in DESIGN.md."
  },
  {
   "property": "C57",
   "status": "proved",
   "theorems": [
    "Ccpy.Precondition.C57_update_R",
    "Ccpy.Precondition.C57_update_R_ccsdt",
    "Ccpy.Precondition.C57_update_R_2h1p",
    "Ccpy.Precondition.C57_update_R_3h2p",
    "Ccpy.Precondition.C57_update_R_2p1h",
    "Ccpy.Precondition.C57_update_R_3p2h",
    "Ccpy.Precondition.C57_update_R_sfccsd",
    "Ccpy.Precondition.C57_update_R_sfccsdt",
    "Ccpy.Precondition.C57_update_R_2p",
    "Ccpy.Precondition.C57_update_R_3p1h",
    "Ccpy.Precondition.C57_update_R_4p2h",
    "Ccpy.Precondition.C57_update_R_3h1p",
    "Ccpy.Precondition.C57_update_R_4h2p",
    "Ccpy.Precondition.C57_antisymmetric"
   ],
   "note": ""
  },
  {
   "property": "C58",
   "status": "proved",
   "theorems": [
    "Ccpy.UpdateKernels.C58_l1a",
    "Ccpy.UpdateKernels.C58_l1b",
    "Ccpy.UpdateKernels.C58_l2a",
    "Ccpy.UpdateKernels.C58_l2b",
    "Ccpy.UpdateKernels.C58_l2c",
    "Ccpy.UpdateKernels.C58_l3a",
    "Ccpy.UpdateKernels.C58_l3b",
    "Ccpy.UpdateKernels.C58_l3c",
    "Ccpy.UpdateKernels.C58_l3d",
    "Ccpy.UpdateKernels.C58_fixed_point"
   ],
   "note": ""
  },
  {
   "property": "C59",
   "status": "partial",
   "theorems": [
    "Ccpy.SpinMatrix.C59_closed_shell_partial",
    "Ccpy.SpinMatrix.C59_spin_flip_partial",
    "Ccpy.SpinMatrix.C59_attachment_fails",
    "Ccpy.SpinMatrix.C59_pair_attachment_fails",
    "Ccpy.SpinMatrix.C59_pair_removal_fails",
    "Ccpy.SpinMatrix.C59_spin_flip_fails"
   ],
   "note": "Partial: restricted as their docstrings say: C59_closed_shell_partial, C59_spin_flip_partial. The code violates the full statement, with a concrete witness in C59_attachment_fails, C59_pair_attachment_fails, C59_pair_removal_fails, C59_spin_flip_fails; see Disagreements in DESIGN.md."
  },
  {
   "property": "C60",
   "status": "proved",
   "theorems": [
    "Ccpy.SpinMatrix.C60_cisd"
   ],
   "note": ""
  },
  {
   "property": "C61",
   "status": "proved",
   "theorems": [
    "Ccpy.Ccsd.C61_t1a",
    "Ccpy.Ccsd.C61_t1b",
    "Ccpy.Ccsd.C61_t2a",
    "Ccpy.Ccsd.C61_t2b",
    "Ccpy.Ccsd.C61_t2c",
    "Ccpy.Ccsd.C61_shapes"
   ],
   "note": ""
  },
  {
   "property": "C62",
   "status": "proved",
   "theorems": [
    "Ccpy.Ccsd.C62_fixed_point",
    "Ccpy.Ccsd.C62_increments"
   ],
   "note": ""
  },
  {
   "property": "C63",
   "status": "proved",
   "theorems": [
    "Ccpy.CcEnergy.C63_cc_energy",
    "Ccpy.CcEnergy.C63_eigenvalue",
    "Ccpy.CcEnergy.C63_ci_energy"
   ],
   "note": ""
  },
  {
   "property": "C64",
   "status": "proved",
   "theorems": [
    "Ccpy.EomCcsd.C64_1a",
    "Ccpy.EomCcsd.C64_1b",
    "Ccpy.EomCcsd.C64_2a",
    "Ccpy.EomCcsd.C64_2b",
    "Ccpy.EomCcsd.C64_2c",
    "Ccpy.EomCcsd.C64_shapes"
   ],
   "note": ""
  },
  {
   "property": "C65",
   "status": "proved",
   "theorems": [
    "Ccpy.LeftCcsd.C65_1a",
    "Ccpy.LeftCcsd.C65_1b",
    "Ccpy.LeftCcsd.C65_2a",
    "Ccpy.LeftCcsd.C65_2b",
    "Ccpy.LeftCcsd.C65_2c",
    "Ccpy.LeftCcsd.C65_ground_1a",
    "Ccpy.LeftCcsd.C65_ground_1b",
    "Ccpy.LeftCcsd.C65_ground_2a",
    "Ccpy.LeftCcsd.C65_ground_2b",
    "Ccpy.LeftCcsd.C65_ground_2c",
    "Ccpy.LeftCcsd.C65_excited",
    "Ccpy.LeftCcsd.C65_shapes"
   ],
   "note": ""
  },
  {
   "property": "C66",
   "status": "proved",
   "theorems": [
    "Ccpy.Ccsdt.C66_t1a",
    "Ccpy.Ccsdt.C66_t1b",
    "Ccpy.Ccsdt.C66_t2a",
    "Ccpy.Ccsdt.C66_t2b",
    "Ccpy.Ccsdt.C66_t2c",
    "Ccpy.Ccsdt.C66_t3a",
    "Ccpy.Ccsdt.C66_t3b",
    "Ccpy.Ccsdt.C66_t3c",
    "Ccpy.Ccsdt.C66_t3d",
    "Ccpy.Ccsdt.C66_shapes"
   ],
   "note": ""
  },
  {
   "property": "C67",
   "status": "proved",
   "theorems": [
    "Ccpy.Ccsdt.C67_fixed_point",
    "Ccpy.Ccsdt.C67_increments"
   ],
   "note": ""
  },
  {
   "property": "C68",
   "status": "proved",
   "theorems": [
    "Ccpy.Amplitudes.C68_triples",
    "Ccpy.Amplitudes.C68_doubles"
   ],
   "note": ""
  },
  {
   "property": "C69",
   "status": "partial",
   "theorems": [
    "Ccpy.Ccsd.C69_t1a",
    "Ccpy.Ccsd.C69_t2a",
    "Ccpy.Ccsd.C69_t2b",
    "Ccpy.Ccsd.C69_fixed_point",
    "Ccpy.Ccsd.C69_increments",
    "Ccpy.Ccsd.C69_shapes",
    "Ccpy.Ccsd.C69_symmetry_fails"
   ],
   "note": "Partial: The code violates the full statement, with a concrete witness in C69_symmetry_fails; see Disagreements in DESIGN.md."
  },
  {
   "property": "C70",
   "status": "proved",
   "theorems": [
    "Ccpy.Ccsdt.C70_t1a",
    "Ccpy.Ccsdt.C70_t2a",
    "Ccpy.Ccsdt.C70_t2b",
    "Ccpy.Ccsdt.C70_t3a",
    "Ccpy.Ccsdt.C70_t3b",
    "Ccpy.Ccsdt.C70_fixed_point",
    "Ccpy.Ccsdt.C70_shapes"
   ],
   "note": ""
  },
  {
   "property": "C71",
   "status": "proved",
   "theorems": [
    "Ccpy.EomCcsd.C71_1a",
    "Ccpy.EomCcsd.C71_singlet_1a",
    "Ccpy.EomCcsd.C71_1b",
    "Ccpy.EomCcsd.C71_singlet_1b",
    "Ccpy.EomCcsd.C71_2a",
    "Ccpy.EomCcsd.C71_singlet_2a",
    "Ccpy.EomCcsd.C71_2b",
    "Ccpy.EomCcsd.C71_singlet_2b",
    "Ccpy.EomCcsd.C71_2c",
    "Ccpy.EomCcsd.C71_singlet_2c",
    "Ccpy.EomCcsd.C71_shapes"
   ],
   "note": ""
  },
  {
   "property": "C72",
   "status": "proved",
   "theorems": [
    "Ccpy.LeftCcsd.C72_1a",
    "Ccpy.LeftCcsd.C72_ground_1a",
    "Ccpy.LeftCcsd.C72_singlet_1a",
    "Ccpy.LeftCcsd.C72_ground_singlet_1a",
    "Ccpy.LeftCcsd.C72_1b",
    "Ccpy.LeftCcsd.C72_ground_1b",
    "Ccpy.LeftCcsd.C72_singlet_1b",
    "Ccpy.LeftCcsd.C72_ground_singlet_1b",
    "Ccpy.LeftCcsd.C72_2a",
    "Ccpy.LeftCcsd.C72_ground_2a",
    "Ccpy.LeftCcsd.C72_singlet_2a",
    "Ccpy.LeftCcsd.C72_ground_singlet_2a",
    "Ccpy.LeftCcsd.C72_2b",
    "Ccpy.LeftCcsd.C72_ground_2b",
    "Ccpy.LeftCcsd.C72_singlet_2b",
    "Ccpy.LeftCcsd.C72_ground_singlet_2b",
    "Ccpy.LeftCcsd.C72_2c",
    "Ccpy.LeftCcsd.C72_ground_2c",
    "Ccpy.LeftCcsd.C72_singlet_2c",
    "Ccpy.LeftCcsd.C72_ground_singlet_2c",
    "Ccpy.LeftCcsd.C72_shapes"
   ],
   "note": ""
  },
  {
   "property": "C73",
   "status": "proved",
   "theorems": [
    "Ccpy.EaEom.C73_ea_a",
    "Ccpy.EaEom.C73_ea_aa",
    "Ccpy.EaEom.C73_ea_ab",
    "Ccpy.EaEom.C73_ea_shapes",
    "Ccpy.IpEom.C73_ip_a",
    "Ccpy.IpEom.C73_ip_aa",
    "Ccpy.IpEom.C73_ip_ab",
    "Ccpy.IpEom.C73_ip_shapes"
   ],
   "note": ""
  },
  {
   "property": "C74",
   "status": "proved",
   "theorems": [
    "Ccpy.EaEom.C74_ea_a",
    "Ccpy.EaEom.C74_ea_aa",
    "Ccpy.EaEom.C74_ea_ab",
    "Ccpy.EaEom.C74_ea_shapes",
    "Ccpy.IpEom.C74_ip_a",
    "Ccpy.IpEom.C74_ip_aa",
    "Ccpy.IpEom.C74_ip_ab",
    "Ccpy.IpEom.C74_ip_shapes"
   ],
   "note": ""
  },
  {
   "property": "C75",
   "status": "proved",
   "theorems": [
    "Ccpy.DeaEom2.C75_dea2_ab",
    "Ccpy.DeaEom2.C75_dea2_shapes",
    "Ccpy.DeaEom.C75_dea_ab",
    "Ccpy.DeaEom.C75_dea_aba",
    "Ccpy.DeaEom.C75_dea_abb",
    "Ccpy.DeaEom.C75_dea_shapes",
    "Ccpy.DipEom.C75_dip_ab",
    "Ccpy.DipEom.C75_dip_aba",
    "Ccpy.DipEom.C75_dip_abb",
    "Ccpy.DipEom.C75_dip_shapes"
   ],
   "note": ""
  },
  {
   "property": "C76",
   "status": "proved",
   "theorems": [
    "Ccpy.SfEom.C76_sf_b",
    "Ccpy.SfEom.C76_sf_ab",
    "Ccpy.SfEom.C76_sf_bb",
    "Ccpy.SfEom.C76_sf_shapes"
   ],
   "note": ""
  },
  {
   "property": "C77",
   "status": "proved",
   "theorems": [
    "Ccpy.HbarCcsd.C77_hbar",
    "Ccpy.EaEom.C77_right_ea_a",
    "Ccpy.EaEom.C77_right_ea_aa",
    "Ccpy.EaEom.C77_right_ea_ab",
    "Ccpy.IpEom.C77_right_ip_a",
    "Ccpy.IpEom.C77_right_ip_aa",
    "Ccpy.IpEom.C77_right_ip_ab",
    "Ccpy.EaEom.C77_left_ea_a",
    "Ccpy.EaEom.C77_left_ea_aa",
    "Ccpy.EaEom.C77_left_ea_ab",
    "Ccpy.IpEom.C77_left_ip_a",
    "Ccpy.IpEom.C77_left_ip_aa",
    "Ccpy.IpEom.C77_left_ip_ab",
    "Ccpy.DeaEom2.C77_right_dea2_ab",
    "Ccpy.DeaEom.C77_right_dea_ab",
    "Ccpy.DeaEom.C77_right_dea_aba",
    "Ccpy.DeaEom.C77_right_dea_abb",
    "Ccpy.DipEom.C77_right_dip_ab",
    "Ccpy.DipEom.C77_right_dip_aba",
    "Ccpy.DipEom.C77_right_dip_abb"
   ],
   "note": ""
  },
  {
   "property": "C78",
   "status": "proved",
   "theorems": [
    "Ccpy.DeaEom.C78_dea_ab",
    "Ccpy.DeaEom.C78_dea_aba",
    "Ccpy.DeaEom.C78_dea_abb",
    "Ccpy.DeaEom.C78_dea_triplet",
    "Ccpy.DeaEom.C78_dea_shapes",
    "Ccpy.DipEom.C78_dip_ab",
    "Ccpy.DipEom.C78_dip_aba",
    "Ccpy.DipEom.C78_dip_abb",
    "Ccpy.DipEom.C78_dip_triplet",
    "Ccpy.DipEom.C78_dip_shapes"
   ],
   "note": ""
  },
  {
   "property": "C79",
   "status": "proved",
   "theorems": [
    "Ccpy.Ccd.C79_t2a",
    "Ccpy.Ccd.C79_t2b",
    "Ccpy.Ccd.C79_t2c",
    "Ccpy.Ccd.C79_shapes",
    "Ccpy.Ccd.C79_fixed_point",
    "Ccpy.Ccd.C79_fixed_point_rhf",
    "Ccpy.Ccd.C79_increments",
    "Ccpy.Ccd.C79_increments_rhf"
   ],
   "note": ""
  },
  {
   "property": "C80",
   "status": "proved",
   "theorems": [
    "Ccpy.Cc2.C80_t1a",
    "Ccpy.Cc2.C80_t1b",
    "Ccpy.Cc2.C80_t2a",
    "Ccpy.Cc2.C80_t2b",
    "Ccpy.Cc2.C80_t2c",
    "Ccpy.Cc2.C80_fixed_point",
    "Ccpy.Cc2.C80_increments",
    "Ccpy.Cc2.C80_shapes"
   ],
   "note": ""
  },
  {
   "property": "C81",
   "status": "partial",
   "theorems": [
    "Ccpy.Cc2.C81_t1a",
    "Ccpy.Cc2.C81_t2b",
    "Ccpy.Cc2.C81_t2a_partial",
    "Ccpy.Cc2.C81_fixed_point_partial",
    "Ccpy.Cc2.C81_shapes",
    "Ccpy.Cc2.C81_fixed_point_fails"
   ],
   "note": "Partial: restricted as their docstrings say: C81_t2a_partial, C81_fixed_point_partial. The code violates the full statement, with a concrete witness in C81_fixed_point_fails; see Disagreements in DESIGN.md."
  },
  {
   "property": "C82",
   "status": "proved",
   "theorems": [
    "Ccpy.PSpace.C82_listed_aaa",
    "Ccpy.PSpace.C82_listed_aab",
    "Ccpy.PSpace.C82_listed_abb",
    "Ccpy.PSpace.C82_t3a",
    "Ccpy.PSpace.C82_t3b",
    "Ccpy.PSpace.C82_t3c",
    "Ccpy.PSpace.C82_t3d",
    "Ccpy.PSpace.C82_t3b_order"
   ],
   "note": ""
  },
  {
   "property": "C83",
   "status": "proved",
   "theorems": [
    "Ccpy.PSpace.C83_t1a",
    "Ccpy.PSpace.C83_t1b",
    "Ccpy.PSpace.C83_t2a",
    "Ccpy.PSpace.C83_t2b",
    "Ccpy.PSpace.C83_t2c",
    "Ccpy.PSpace.C83_fixed_point",
    "Ccpy.PSpace.C83_runs",
    "Ccpy.PSpace.C83_no_rows",
    "Ccpy.PSpace.C83_empty",
    "Ccpy.PSpace.C83_closed_fixed_point",
    "Ccpy.PSpace.C83_closed_runs"
   ],
   "note": ""
  },
  {
   "property": "C84",
   "status": "proved",
   "theorems": [
    "Ccpy.CrCc.C84_closed",
    "Ccpy.CrCc.C84_corrections",
    "Ccpy.CrCc.C84_no_result"
   ],
   "note": ""
  },
  {
   "property": "C85",
   "status": "partial",
   "theorems": [
    "Ccpy.CrCc.C85_correction",
    "Ccpy.CrCc.C85_no_result",
    "Ccpy.CrCc.C85_closed",
    "Ccpy.CrCc.C85_documented_partial",
    "Ccpy.CrCc.C85_documented_fails"
   ],
   "note": "Partial: restricted as their docstrings say: C85_documented_partial. The code violates the full statement, with a concrete witness in C85_documented_fails; see Disagreements in DESIGN.md."
  },
  {
   "property": "C86",
   "status": "proved",
   "theorems": [
    "Ccpy.Mp3.C86_second_order",
    "Ccpy.Mp3.C86_first_order",
    "Ccpy.Mp3.C86_third_order",
    "Ccpy.Mp3.C86_calc_mp3"
   ],
   "note": ""
  },
  {
   "property": "C87",
   "status": "partial",
   "theorems": [
    "Ccpy.GuessMatrix.C87_cis_aa",
    "Ccpy.GuessMatrix.C87_cis_ab",
    "Ccpy.GuessMatrix.C87_cis_ba",
    "Ccpy.GuessMatrix.C87_cis_bb",
    "Ccpy.GuessMatrix.C87_sf",
    "Ccpy.GuessMatrix.C87_1p",
    "Ccpy.GuessMatrix.C87_1h",
    "Ccpy.GuessMatrix.C87_2p",
    "Ccpy.GuessMatrix.C87_2h",
    "Ccpy.GuessMatrix.C87_cis_other_a",
    "Ccpy.GuessMatrix.C87_cis_other_b",
    "Ccpy.GuessMatrix.C87_2p_other",
    "Ccpy.GuessMatrix.C87_2h_other",
    "Ccpy.GuessMatrix.C87_scatter2p_partial",
    "Ccpy.GuessMatrix.C87_scatter2h_partial",
    "Ccpy.GuessMatrix.C87_scatter2p_fails",
    "Ccpy.GuessMatrix.C87_scatter2h_fails"
   ],
   "note": "Partial: restricted as their docstrings say: C87_scatter2p_partial, C87_scatter2h_partial. The code violates the full statement, with a concrete witness in C87_scatter2p_fails, C87_scatter2h_fails; see Disagreements in DESIGN.md."
  },
  {
   "property": "C88",
   "status": "partial",
   "theorems": [
    "Ccpy.Vvvv.C88_same",
    "Ccpy.Vvvv.C88_same_left",
    "Ccpy.Vvvv.C88_mixed",
    "Ccpy.Vvvv.C88_mixed_left",
    "Ccpy.Vvvv.C88_index_partial",
    "Ccpy.Vvvv.C88_index_fails"
   ],
   "note": "Partial: restricted as their docstrings say: C88_index_partial. The code violates the full statement, with a concrete witness in C88_index_fails; see Disagreements in DESIGN.md."
  },
  {
   "property": "C89",
   "status": "partial",
   "theorems": [
    "Ccpy.NatOrbs.C89_vectors",
    "Ccpy.NatOrbs.C89_biorthonormal_partial",
    "Ccpy.NatOrbs.C89_no_mixing",
    "Ccpy.NatOrbs.C89_biorthonormal_fails",
    "Ccpy.NatOrbs.C89_one_body",
    "Ccpy.NatOrbs.C89_two_body",
    "Ccpy.NatOrbs.C89_slices",
    "Ccpy.NatOrbs.C89_bare"
   ],
   "note": "Partial: restricted as their docstrings say: C89_biorthonormal_partial. The code violates the full statement, with a concrete witness in C89_biorthonormal_fails; see Disagreements in DESIGN.md."
  },
  {
   "property": "C90",
   "status": "partial",
   "theorems": [
    "Ccpy.SelfEnergy.C90_compiled_alpha_partial",
    "Ccpy.SelfEnergy.C90_python_alpha_partial",
    "Ccpy.SelfEnergy.C90_python_beta_partial",
    "Ccpy.SelfEnergy.C90_python_beta_excess_partial",
    "Ccpy.SelfEnergy.C90_python_beta_fails",
    "Ccpy.SelfEnergy.C90_open_shell_fails",
    "Ccpy.SelfEnergy.C90_compiled_beta_fails",
    "Ccpy.SelfEnergy.C90_unoccupied_fails",
    "Ccpy.SelfEnergy.C90_roots",
    "Ccpy.SelfEnergy.C90_roots_fails"
   ],
   "note": "Partial: restricted as their docstrings say: C90_compiled_alpha_partial, C90_python_alpha_partial, C90_python_beta_partial, C90_python_beta_excess_partial. The code violates the full statement, with a concrete witness in C90_python_beta_fails, C90_open_shell_fails, C90_compiled_beta_fails, C90_unoccupied_fails, C90_roots_fails; see Disagreements in DESIGN.md."
  },
  {
   "property": "C91",
   "status": "partial",
   "theorems": [
    "Ccpy.ShellCholesky.C91_shell",
    "Ccpy.ShellCholesky.C91_column",
    "Ccpy.ShellCholesky.C91_error",
    "Ccpy.ShellCholesky.C91_returns_partial",
    "Ccpy.ShellCholesky.C91_buffer_fails",
    "Ccpy.ShellCholesky.C91_message"
   ],
   "note": "Partial: restricted as their docstrings say: C91_returns_partial. The code violates the full statement, with a concrete witness in C91_buffer_fails; see Disagreements in DESIGN.md."
  },
  {
   "property": "C92",
   "status": "partial",
   "theorems": [
    "Ccpy.LrCcsd.C92_1a",
    "Ccpy.LrCcsd.C92_1b",
    "Ccpy.LrCcsd.C92_2a",
    "Ccpy.LrCcsd.C92_2c",
    "Ccpy.LrCcsd.C92_2b_partial",
    "Ccpy.LrCcsd.C92_property",
    "Ccpy.LrCcsd.C92_shapes",
    "Ccpy.LrCcsd.C92_shape_fails",
    "Ccpy.LrCcsd.C92_2b_fails"
   ],
   "note": "Partial: restricted as their docstrings say: C92_2b_partial. The code violates the full statement, with a concrete witness in C92_shape_fails, C92_2b_fails; see Disagreements in DESIGN.md."
  }
 ]
}