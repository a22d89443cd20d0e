{
 "claims": [
  {
   "property": "C01",
   "status": "proved",
   "theorems": [
    "PyClaw.C01_dimension_coordinates"
   ],
   "note": ""
  },
  {
   "property": "C02",
   "status": "proved",
   "theorems": [
    "PyClaw.C02_ghost_coordinates"
   ],
   "note": ""
  },
  {
   "property": "C03",
   "status": "partial",
   "theorems": [
    "PyClaw.C03_setters_validate_partial",
    "PyClaw.C03_construction_validates",
    "PyClaw.C03_rejected_assignment_persists_violated"
   ],
   "note": "Setters and construction raise exactly on invalid values; the rejected value is however stored (C03_rejected_assignment_persists_violated)."
  },
  {
   "property": "C04",
   "status": "partial",
   "theorems": [
    "PyClaw.C04_dimension_cache_coherent_partial",
    "PyClaw.C04_junk_cached_violated"
   ],
   "note": "Coherent for every history in which num_cells stays positive; with num_cells = 0 junk is cached (C04_junk_cached_violated)."
  },
  {
   "property": "C05",
   "status": "partial",
   "theorems": [
    "PyClaw.C05_grid_coordinates_coherent_partial",
    "PyClaw.C05_stale_after_dimension_read_violated",
    "PyClaw.C05_stale_after_c_read_violated",
    "PyClaw.C05_stale_after_ghost_read_violated"
   ],
   "note": "Coherent for every disciplined history; two orders of operations give stale arrays (C05_*_violated)."
  },
  {
   "property": "C06",
   "status": "proved",
   "theorems": [
    "PyClaw.C06_gauges_in_their_cells"
   ],
   "note": ""
  },
  {
   "property": "C07",
   "status": "proved",
   "theorems": [
    "PyClaw.C07_dimension_names_unique",
    "PyClaw.C07_patch_construction"
   ],
   "note": ""
  },
  {
   "property": "C08",
   "status": "proved",
   "theorems": [
    "PyClaw.C08_domain_from_bounds",
    "PyClaw.C08_fourth_bound_dropped"
   ],
   "note": ""
  },
  {
   "property": "C09",
   "status": "proved",
   "theorems": [
    "PyClaw.C09_ghost_copy_roundtrip",
    "PyClaw.C09_no_ghost_cells_raises",
    "PyClaw.C09_no_ghost_cells_lost"
   ],
   "note": ""
  },
  {
   "property": "C10",
   "status": "partial",
   "theorems": [
    "PyClaw.C10_deepcopy_independent_partial",
    "PyClaw.C10_index_capa_lost_violated"
   ],
   "note": "Independence and equality of q, aux, t, problem_data proved; index_capa etc. are lost by the code (C10_index_capa_lost_violated)."
  },
  {
   "property": "C11",
   "status": "proved",
   "theorems": [
    "PyClaw.C11_mp_set_once",
    "PyClaw.C11_mF_set_once"
   ],
   "note": ""
  },
  {
   "property": "C12",
   "status": "partial",
   "theorems": [
    "PyClaw.C12_shared_solver_corrupts_violated",
    "PyClaw.C12_separate_solvers_partial"
   ],
   "note": "False of the code when a solver is shared (C12_shared_solver_corrupts_violated); proved when every solver serves one solution."
  },
  {
   "property": "C13",
   "status": "proved",
   "theorems": [
    "PyClaw.C13_interior_untouched"
   ],
   "note": ""
  },
  {
   "property": "C14",
   "status": "proved",
   "theorems": [
    "PyClaw.C14_extrapolation"
   ],
   "note": ""
  },
  {
   "property": "C15",
   "status": "proved",
   "theorems": [
    "PyClaw.C15_periodic",
    "PyClaw.C15_few_cells_stale"
   ],
   "note": ""
  },
  {
   "property": "C16",
   "status": "proved",
   "theorems": [
    "PyClaw.C16_wall",
    "PyClaw.C16_few_cells_stale"
   ],
   "note": ""
  },
  {
   "property": "C17",
   "status": "proved",
   "theorems": [
    "PyClaw.C17_fill_is_fold",
    "PyClaw.C17_serial_fill"
   ],
   "note": ""
  },
  {
   "property": "C18",
   "status": "proved",
   "theorems": [
    "PyClaw.C18_raises_first_problem",
    "PyClaw.C18_unset_raises"
   ],
   "note": ""
  },
  {
   "property": "C19",
   "status": "partial",
   "theorems": [
    "PyClaw.C19_lands_on_tend_partial",
    "PyClaw.C19_silent_return_violated"
   ],
   "note": "Proved unless the last attempts before max_steps were rejected: then the call returns silently before tend (C19_silent_return_violated)."
  },
  {
   "property": "C20",
   "status": "proved",
   "theorems": [
    "PyClaw.C20_no_overshoot",
    "PyClaw.C20_time_monotone"
   ],
   "note": ""
  },
  {
   "property": "C21",
   "status": "proved",
   "theorems": [
    "PyClaw.C21_rejected_restores",
    "PyClaw.C21_only_accepted_steps_count"
   ],
   "note": ""
  },
  {
   "property": "C22",
   "status": "proved",
   "theorems": [
    "PyClaw.C22_accepted_within_limit",
    "PyClaw.C22_cflmax_is_maximum"
   ],
   "note": ""
  },
  {
   "property": "C23",
   "status": "proved",
   "theorems": [
    "PyClaw.C23_numsteps_counts"
   ],
   "note": ""
  },
  {
   "property": "C24",
   "status": "partial",
   "theorems": [
    "PyClaw.C24_cfl_violation_raises",
    "PyClaw.C24_not_dividing_raises",
    "PyClaw.C24_uniform_steps_partial",
    "PyClaw.C24_large_time_violated"
   ],
   "note": "Proved in exact arithmetic for dt above the tolerances 1e-10 and 1e-14*tend of the code; fails at large times (C24_large_time_violated)."
  },
  {
   "property": "C25",
   "status": "partial",
   "theorems": [
    "PyClaw.C25_no_step_partial",
    "PyClaw.C25_next_call_fails_violated",
    "PyClaw.C25_fixed_dt_past_raises_violated"
   ],
   "note": "The call takes no step; but with variable dt it sets max_steps to 0 for all later calls and with fixed dt it raises (C25_*_violated)."
  },
  {
   "property": "C26",
   "status": "partial",
   "theorems": [
    "PyClaw.C26_attempts_bounded",
    "PyClaw.C26_exhaustion_reported_partial",
    "PyClaw.C26_silent_exhaustion_violated"
   ],
   "note": "The bound is proved; exhaustion is not always reported (C26_silent_exhaustion_violated)."
  },
  {
   "property": "C27",
   "status": "partial",
   "theorems": [
    "PyClaw.C27_dt_choice_partial",
    "PyClaw.C27_landing_adjustment",
    "PyClaw.C27_first_step_ignores_dt_max_violated"
   ],
   "note": "Proved from the second step on and for the landing adjustment; the first step ignores dt_max (C27_first_step_ignores_dt_max_violated)."
  },
  {
   "property": "C28",
   "status": "proved",
   "theorems": [
    "PyClaw.C28_single_step"
   ],
   "note": ""
  },
  {
   "property": "C29",
   "status": "proved",
   "theorems": [
    "PyClaw.C29_retry_shrinks",
    "PyClaw.C29_retry_accepted",
    "PyClaw.C29_reaches_target"
   ],
   "note": ""
  },
  {
   "property": "C30",
   "status": "proved",
   "theorems": [
    "PyClaw.C30_style1",
    "PyClaw.C30_style2",
    "PyClaw.C30_style3",
    "PyClaw.C30_invalid_style_raises"
   ],
   "note": ""
  },
  {
   "property": "C31",
   "status": "proved",
   "theorems": [
    "PyClaw.C31_frames",
    "PyClaw.C31_functionals",
    "PyClaw.C31_p_files",
    "PyClaw.C31_kept_copies",
    "PyClaw.C31_frame_times",
    "PyClaw.C31_end_to_end"
   ],
   "note": ""
  },
  {
   "property": "C32",
   "status": "partial",
   "theorems": [
    "PyClaw.C32_numbering_continues_partial",
    "PyClaw.C32_overwrites_violated",
    "PyClaw.C32_restart_violated"
   ],
   "note": "Proved with keep_copy for a first run started at frame 0; otherwise frames are overwritten (C32_*_violated)."
  },
  {
   "property": "C33",
   "status": "partial",
   "theorems": [
    "PyClaw.C33_refuses_partial",
    "PyClaw.C33_gauge_files_erased_violated",
    "PyClaw.C33_gauges_block_new_directory_violated"
   ],
   "note": "Raises before any step or frame; but gauge files are erased first, and gauges make a fresh directory be refused (C33_*_violated)."
  },
  {
   "property": "C34",
   "status": "proved",
   "theorems": [
    "PyClaw.C34_python_balance",
    "PyClaw.C34_fortran_balance",
    "PyClaw.C34_python_conserves",
    "PyClaw.C34_fortran_conserves"
   ],
   "note": ""
  },
  {
   "property": "C35",
   "status": "partial",
   "theorems": [
    "PyClaw.C35_python_uniform",
    "PyClaw.C35_fortran_uniform",
    "PyClaw.C35_split2_uniform",
    "PyClaw.C35_split3_uniform",
    "PyClaw.C35_unsplit2_uniform",
    "PyClaw.C35_unsplit3_uniform_partial",
    "PyClaw.C35_unsplit3_uniform_violated"
   ],
   "note": "Proved for all one-, two- and three-dimensional kernels, except the unsplit 3D step of first order with correction terms propagated transversally, which reads uninitialised memory (C35_unsplit3_uniform_violated)."
  },
  {
   "property": "C36",
   "status": "partial",
   "theorems": [
    "PyClaw.C36_kernels_agree_partial",
    "PyClaw.C36_superbee_violated",
    "PyClaw.C36_fwave_zero_speed_violated",
    "PyClaw.C36_cfl_extra_interface_violated"
   ],
   "note": "Identical q for limiters 0, 1, 3, 4, 5 (f-waves of nonzero speed); the code differs for superbee, standing f-waves and in the Courant number (C36_*_violated)."
  },
  {
   "property": "C37",
   "status": "proved",
   "theorems": [
    "PyClaw.C37_fortran_cfl",
    "PyClaw.C37_python_cfl",
    "PyClaw.C37_plain",
    "PyClaw.C37_split3_cfl",
    "PyClaw.C37_unsplit2_cfl",
    "PyClaw.C37_split2_cfl",
    "PyClaw.C37_unsplit3_cfl"
   ],
   "note": ""
  },
  {
   "property": "C38",
   "status": "partial",
   "theorems": [
    "PyClaw.C38_fortran_limiters",
    "PyClaw.C38_python_limiters_partial",
    "PyClaw.C38_python_superbee_region",
    "PyClaw.C38_python_superbee_violated"
   ],
   "note": "Full for the Fortran limiters and for Python minmod, van Leer, MC; the Python superbee is not superbee (C38_python_superbee_violated)."
  },
  {
   "property": "C39",
   "status": "proved",
   "theorems": [
    "PyClaw.C39_python",
    "PyClaw.C39_fortran",
    "PyClaw.C39_python_limiters",
    "PyClaw.C39_unlimited_overshoots",
    "PyClaw.C39_hyperbee"
   ],
   "note": ""
  },
  {
   "property": "C40",
   "status": "partial",
   "theorems": [
    "PyClaw.C40_fortran_local",
    "PyClaw.C40_python_local_partial",
    "PyClaw.C40_python_global_limiter_violated",
    "PyClaw.C40_split3_local",
    "PyClaw.C40_unsplit2_local",
    "PyClaw.C40_split2_local",
    "PyClaw.C40_unsplit3_local"
   ],
   "note": "Proved for the Fortran kernel and Python limiters 0-16; false for the limiters that reduce over the whole array (C40_python_global_limiter_violated)."
  },
  {
   "property": "C41",
   "status": "partial",
   "theorems": [
    "PyClaw.C41_splitting_partial",
    "PyClaw.C41_no_source",
    "PyClaw.C41_equality_skips_source_violated"
   ],
   "note": "Proved for every run in which no attempt has a Courant number exactly cfl_max; at equality the final source is skipped (C41_equality_skips_source_violated)."
  },
  {
   "property": "C42",
   "status": "proved",
   "theorems": [
    "PyClaw.C42_sweeps",
    "PyClaw.C42_conserves",
    "PyClaw.C42_one_dimensional_data"
   ],
   "note": ""
  },
  {
   "property": "C43",
   "status": "proved",
   "theorems": [
    "PyClaw.C43_text",
    "PyClaw.C43_split_text",
    "PyClaw.C43_update",
    "PyClaw.C43_conserves",
    "PyClaw.C43_one_dimensional_data"
   ],
   "note": ""
  },
  {
   "property": "C44",
   "status": "partial",
   "theorems": [
    "PyClaw.C44_python_balance",
    "PyClaw.C44_fortran_balance_partial",
    "PyClaw.C44_python_conserves",
    "PyClaw.C44_fortran_matching_partial",
    "PyClaw.C44_fortran_conserves_partial",
    "PyClaw.C44_flux2_matching_partial",
    "PyClaw.C44_flux3_matching_partial",
    "PyClaw.C44_tvd_wave_violated",
    "PyClaw.C44_fortran_capacity_violated"
   ],
   "note": "Full for the Python kernel; for the Fortran kernel TVD, WENO of all orders by components and WENO5 by waves, 1D-3D; false for tvd2_wave and for capacity functions with Fortran 2003 reallocation (C44_*_violated); characteristic reconstructions only through the general theorem."
  },
  {
   "property": "C45",
   "status": "proved",
   "theorems": [
    "PyClaw.C45_fortran",
    "PyClaw.C45_python",
    "PyClaw.C45_fortran_shu",
    "PyClaw.C45_candidates",
    "PyClaw.C45_exact_on_quadratics",
    "PyClaw.C45_constants",
    "PyClaw.C45_weights_fortran",
    "PyClaw.C45_weights_python",
    "PyClaw.C45_weights_shu",
    "PyClaw.C45_weights_determine"
   ],
   "note": ""
  },
  {
   "property": "C46",
   "status": "proved",
   "theorems": [
    "PyClaw.C46_fortran",
    "PyClaw.C46_python",
    "PyClaw.C46_equal_indicators"
   ],
   "note": ""
  },
  {
   "property": "C47",
   "status": "proved",
   "theorems": [
    "PyClaw.C47_order",
    "PyClaw.C47_general_rk",
    "PyClaw.C47_constant_rhs",
    "PyClaw.C47_invariants"
   ],
   "note": ""
  },
  {
   "property": "C48",
   "status": "proved",
   "theorems": [
    "PyClaw.C48_ssp"
   ],
   "note": ""
  },
  {
   "property": "C49",
   "status": "partial",
   "theorems": [
    "PyClaw.C49_history_partial",
    "PyClaw.C49_discard",
    "PyClaw.C49_times",
    "PyClaw.C49_multistep_step",
    "PyClaw.C49_redone_step",
    "PyClaw.C49_violated"
   ],
   "note": "Proved for every sequence of accepted, rejected and repeated steps in which no repeated step is itself rejected; in that case the history is wrong (C49_violated)."
  },
  {
   "property": "C50",
   "status": "proved",
   "theorems": [
    "PyClaw.C50_order",
    "PyClaw.C50_weights",
    "PyClaw.C50_step_size",
    "PyClaw.C50_ssp_k2",
    "PyClaw.C50_ssp_k3",
    "PyClaw.C50_run_step_size",
    "PyClaw.C50_smallest",
    "PyClaw.C50_run_k2",
    "PyClaw.C50_run_k3"
   ],
   "note": ""
  },
  {
   "property": "C51",
   "status": "partial",
   "theorems": [
    "PyClaw.C51_fortran_partial",
    "PyClaw.C51_python_first_partial",
    "PyClaw.C51_python_violated",
    "PyClaw.C51_python_conservation_violated"
   ],
   "note": "True of the Fortran kernels and of the first stage; false of all later stages of the Python kernel, which then fails to conserve (C51_python_violated, C51_python_conservation_violated)."
  },
  {
   "property": "C52",
   "status": "partial",
   "theorems": [
    "PyClaw.C52_setup",
    "PyClaw.C52_unknown_integrator",
    "PyClaw.C52_stencil",
    "PyClaw.C52_cfl_order",
    "PyClaw.C52_limtype3_violated",
    "PyClaw.C52_fortran_reads",
    "PyClaw.C52_python_reads"
   ],
   "note": "Proved for lim_type 2, all orders (C85_reads, C52_fortran_reads). The undocumented lim_type 3 does not adapt num_ghost (C52_limtype3_violated)."
  },
  {
   "property": "C53",
   "status": "partial",
   "theorems": [
    "PyClaw.C53_round_trip",
    "PyClaw.C53_aux_of_first_frame",
    "PyClaw.C53_other_frames",
    "PyClaw.C53_stale_aux_violated",
    "PyClaw.C53_derived_frames_violated"
   ],
   "note": "Full for solutions and their auxiliary data; false for frames of derived quantities and when stale aux files are picked up (C53_*_violated)."
  },
  {
   "property": "C54",
   "status": "partial",
   "theorems": [
    "PyClaw.C54_decode",
    "PyClaw.C54_aux_partial",
    "PyClaw.C54_aux_without_ghosts_violated",
    "PyClaw.C54_truncated"
   ],
   "note": "q in full, for all shapes, ghost widths and patches; auxiliary arrays with at least one ghost cell, read into an empty solution; without ghost cells the code loses them (C54_aux_without_ghosts_violated)."
  },
  {
   "property": "C55",
   "status": "partial",
   "theorems": [
    "PyClaw.C55_append_partial",
    "PyClaw.C55_sequence_partial",
    "PyClaw.C55_time",
    "PyClaw.C55_second_read_violated"
   ],
   "note": "Full without auxiliary data, for every sequence of reads and all files; with auxiliary data a second read raises (C55_second_read_violated)."
  },
  {
   "property": "C56",
   "status": "partial",
   "theorems": [
    "PyClaw.C56_round_trip",
    "PyClaw.C56_no_records_violated",
    "PyClaw.C56_lagrangian_violated",
    "PyClaw.C56_other_dimensions_violated",
    "PyClaw.C56_wrong_id",
    "PyClaw.C56_binary"
   ],
   "note": "Full for gauges with two coordinates and at least one record; false for gauges without records, Lagrangian gauges and one- or three-dimensional locations (C56_*_violated)."
  },
  {
   "property": "C57",
   "status": "partial",
   "theorems": [
    "PyClaw.C57_evolve_partial",
    "PyClaw.C57_session_partial",
    "PyClaw.C57_run_partial",
    "PyClaw.C57_three_dimensions_violated",
    "PyClaw.C57_second_run_violated"
   ],
   "note": "Full in one and two dimensions for the first run on a grid, all step histories including failed calls; false in three dimensions and for a second controller run (C57_*_violated)."
  },
  {
   "property": "C58",
   "status": "proved",
   "theorems": [
    "PyClaw.C58_counter",
    "PyClaw.C58_exhaustive"
   ],
   "note": ""
  },
  {
   "property": "C59",
   "status": "partial",
   "theorems": [
    "PyClaw.C59_info_from_argv_partial",
    "PyClaw.C59_method_variant_violated",
    "PyClaw.C59_method_variant"
   ],
   "note": "Full for _info_from_argv; _method_info_from_argv raises on JSON numbers and on True (C59_method_variant_violated)."
  },
  {
   "property": "C60",
   "status": "proved",
   "theorems": [
    "PyClaw.C60_variants"
   ],
   "note": ""
  },
  {
   "property": "C61",
   "status": "proved",
   "theorems": [
    "PyClaw.C61_attribute_guard"
   ],
   "note": ""
  },
  {
   "property": "C62",
   "status": "proved",
   "theorems": [
    "PyClaw.C62_is_valid"
   ],
   "note": ""
  },
  {
   "property": "C63",
   "status": "proved",
   "theorems": [
    "PyClaw.C63_local_part",
    "PyClaw.C63_contiguous",
    "PyClaw.C63_centers",
    "PyClaw.C63_owner",
    "PyClaw.C63_local_grid"
   ],
   "note": ""
  },
  {
   "property": "C64",
   "status": "partial",
   "theorems": [
    "PyClaw.C64_run",
    "PyClaw.C64_fortran1",
    "PyClaw.C64_python1_partial",
    "PyClaw.C64_unsplit2",
    "PyClaw.C64_unsplit3",
    "PyClaw.C64_python_global_limiter_violated",
    "PyClaw.C64_split2_partial",
    "PyClaw.C64_split2_cfl_violated",
    "PyClaw.C64_split3_violated"
   ],
   "note": "the run theorem (C64_run) holds for every kernel that is local (LocalKernel); the 1D Fortran kernel, the Python kernel with limiters 0-16 and the unsplit 2D and 3D kernels are local. The Python limiters with global maxima, the Courant number of the split 2D step and the split 3D step are not (violations). SharpClaw: see C95; PETSc and MPI are trusted"
  },
  {
   "property": "C65",
   "status": "partial",
   "theorems": [
    "PyClaw.C65_nearest_edge",
    "PyClaw.C65_covered_cells_are_hidden",
    "PyClaw.C65_hidden_iff_covered_partial",
    "PyClaw.C65_patch_to_the_left_violated"
   ],
   "note": "Every covered cell is hidden; conversely hidden cells are covered if no finer patch begins left of or below the patch; false otherwise (C65_patch_to_the_left_violated)."
  },
  {
   "property": "C66",
   "status": "partial",
   "theorems": [
    "PyClaw.C66_tvd_limiters_partial",
    "PyClaw.C66_not_tvd_violated",
    "PyClaw.C66_beta_always_zero_violated",
    "PyClaw.C66_hyperbee_beam_warming",
    "PyClaw.C66_hyperbee",
    "PyClaw.C66_superpower_violated",
    "PyClaw.C66_cada_violated"
   ],
   "note": "9, 11, 15, 16 and (over the reals) 19 proved; 7, 8, 12, 13, 14, 20, 21, 22 are not in the region, 17 is identically zero (C66_*_violated). 18 and 23 return one number for the whole array (C40)."
  },
  {
   "property": "C67",
   "status": "partial",
   "theorems": [
    "PyClaw.C67_generated_tests_partial",
    "PyClaw.C67_collected_tests_violated"
   ],
   "note": "Proved when each test is called before the next is obtained; false when collected first (C67_collected_tests_violated)."
  },
  {
   "property": "C68",
   "status": "partial",
   "theorems": [
    "PyClaw.C68_fortran_run_partial",
    "PyClaw.C68_python_uniform",
    "PyClaw.C68_fortran_uniform_partial"
   ],
   "note": "Full for the Python kernel; Fortran kernel except component-wise TVD, which divides 0/0 on uniform data."
  },
  {
   "property": "C69",
   "status": "partial",
   "theorems": [
    "PyClaw.C69_fortran_run_partial",
    "PyClaw.C69_fortran_step_partial",
    "PyClaw.C69_python_step"
   ],
   "note": "Runge-Kutta methods of any tableau; exclusions of C44 and C51."
  },
  {
   "property": "C70",
   "status": "partial",
   "theorems": [
    "PyClaw.C70_same_edges_partial",
    "PyClaw.C70_weno_partial",
    "PyClaw.C70_weno_wave_partial",
    "PyClaw.C70_epsilon_violated",
    "PyClaw.C70_small_jump_violated"
   ],
   "note": "Agreement of component-wise WENO up to the factor 12 in epsweno and of scalar WENO by waves above the jump threshold; false otherwise (C70_*_violated)."
  },
  {
   "property": "C71",
   "status": "partial",
   "theorems": [
    "PyClaw.C71_sweeps",
    "PyClaw.C71_split3_conserves_partial",
    "PyClaw.C71_split3_conserves_violated"
   ],
   "note": "Sweeps proved in full; conservation for first order or without a limiter; false with a limiter, because only one ghost row is swept (C71_split3_conserves_violated)."
  },
  {
   "property": "C72",
   "status": "partial",
   "theorems": [
    "PyClaw.C72_update",
    "PyClaw.C72_conserves",
    "PyClaw.C72_one_dimensional_data",
    "PyClaw.C72_determined_partial",
    "PyClaw.C72_determined_violated"
   ],
   "note": "Update, conservation and one-dimensional data in full; determinacy unless order = 1 and transverse_waves >= 20, where uninitialised memory is read (C72_determined_violated)."
  },
  {
   "property": "C73",
   "status": "proved",
   "theorems": [
    "PyClaw.C73_recorded_format_wins",
    "PyClaw.C73_argument_decides",
    "PyClaw.C73_old_headers",
    "PyClaw.C73_ascii_frames"
   ],
   "note": ""
  },
  {
   "property": "C74",
   "status": "partial",
   "theorems": [
    "PyClaw.C74_frame_partial",
    "PyClaw.C74_states_after_partial",
    "PyClaw.C74_writing_changes_the_solution_violated",
    "PyClaw.C74_second_frame_violated",
    "PyClaw.C74_level_order_violated"
   ],
   "note": "Full for states whose levels first appear in increasing order, as to the frame; false otherwise, and writing changes the solution (C74_*_violated)."
  },
  {
   "property": "C75",
   "status": "proved",
   "theorems": [
    "PyClaw.C75_corner_transport2",
    "PyClaw.C75_corner_transport3",
    "PyClaw.C75_no_new_extrema2",
    "PyClaw.C75_without_transverse_overshoots",
    "PyClaw.C75_no_new_extrema3"
   ],
   "note": ""
  },
  {
   "property": "C76",
   "status": "partial",
   "theorems": [
    "PyClaw.C76_python_lax_wendroff",
    "PyClaw.C76_fortran_lax_wendroff",
    "PyClaw.C76_python_quadratic",
    "PyClaw.C76_fortran_quadratic",
    "PyClaw.C76_python_linear",
    "PyClaw.C76_fortran_linear",
    "PyClaw.C76_limiters_at_one",
    "PyClaw.C76_theta_limiters_violated",
    "PyClaw.C76_python_linear_schemes_partial",
    "PyClaw.C76_python_third_order_partial",
    "PyClaw.C76_zero_jump_violated",
    "PyClaw.C76_unsplit2_quadratic",
    "PyClaw.C76_unsplit2_polynomials",
    "PyClaw.C76_unsplit3_polynomials",
    "PyClaw.C76_unsplit3_without_double"
   ],
   "note": "1D: quadratics without limiter for every linear system, linear data with the Fortran limiters and Python limiters 1-11, 15, 16; false for Python limiters 12, 13, 14, 17 and for zero jumps of the linear schemes (C76_*_violated). 2D: quadratics for every linear system. 3D: advection, all documented transverse_waves. Missing: 3D systems, SharpClaw order."
  },
  {
   "property": "C77",
   "status": "partial",
   "theorems": [
    "PyClaw.C77_fixed_not_dividing",
    "PyClaw.C77_fixed_lands",
    "PyClaw.C77_runs",
    "PyClaw.C77_retry_smaller",
    "PyClaw.C77_lands",
    "PyClaw.C77_reaches",
    "PyClaw.C77_multistep_decision",
    "PyClaw.C77_fixed_accepted",
    "PyClaw.C77_stuck_after_giving_up",
    "PyClaw.C77_new_data_violated",
    "PyClaw.C77_dtMax_violated",
    "PyClaw.C77_every_stage_within_limit"
   ],
   "note": "Full for Runge-Kutta methods with variable steps; for the multistep methods only the acceptance rule (their steps are the subject of C48-C50), for fixed steps the Courant limit, the refusal of steps that do not divide the interval and, if they do, the landing in N steps of the method. False parts: C77_*_violated, C77_stuck_after_giving_up."
  },
  {
   "property": "C78",
   "status": "partial",
   "theorems": [
    "PyClaw.C78_tvd2",
    "PyClaw.C78_tvd2_mirror",
    "PyClaw.C78_tvd2_wave",
    "PyClaw.C78_tvd2_wave_scalar",
    "PyClaw.C78_tvd2_wave_last_violated",
    "PyClaw.C78_tvd2_char",
    "PyClaw.C78_limiter5_violated"
   ],
   "note": "Component-wise for differing neighbours (equal neighbours are 0/0 in the code); wave-based for all interfaces of the grid but the last, where it is false; characteristic-wise for any matrices. False for limiter 5 (C78_*_violated)."
  },
  {
   "property": "C79",
   "status": "partial",
   "theorems": [
    "PyClaw.C79_weno_char",
    "PyClaw.C79_weno_char_quadratics",
    "PyClaw.C79_weno_wave",
    "PyClaw.C79_weno_fwave",
    "PyClaw.C79_weno_trans_partial",
    "PyClaw.C79_weno_trans_violated",
    "PyClaw.C79_weights_char",
    "PyClaw.C79_weights_wave",
    "PyClaw.C79_weights_fwave"
   ],
   "note": "Full for weno5_char; weno5_wave and weno5_fwave for constant eigenvectors and waves above the threshold; false for weno5_trans (C79_weno_trans_violated), true there if rows and columns of the eigenvector matrix agree (C79_weno_trans_partial). The call of evec is not modelled: its arguments do not match."
  },
  {
   "property": "C80",
   "status": "proved",
   "theorems": [
    "PyClaw.C80_first_order",
    "PyClaw.C80_grid"
   ],
   "note": ""
  },
  {
   "property": "C81",
   "status": "partial",
   "theorems": [
    "PyClaw.C81_fortran1",
    "PyClaw.C81_python1",
    "PyClaw.C81_unsplit2",
    "PyClaw.C81_split2",
    "PyClaw.C81_unsplit3",
    "PyClaw.C81_split3_partial"
   ],
   "note": "Full for the 1D kernels, split and unsplit 2D and unsplit 3D; the split 3D method without limiters only (false with limiters, C71_split3_conserves_violated)."
  },
  {
   "property": "C82",
   "status": "partial",
   "theorems": [
    "PyClaw.C82_fortran1",
    "PyClaw.C82_python1",
    "PyClaw.C82_unsplit2",
    "PyClaw.C82_split2",
    "PyClaw.C82_unsplit3_partial",
    "PyClaw.C82_split3"
   ],
   "note": "Full for all kernels except unsplit 3D with order 1 and double transverse propagation (false, C35_unsplit3_uniform_violated)."
  },
  {
   "property": "C83",
   "status": "proved",
   "theorems": [
    "PyClaw.C83_fortran1",
    "PyClaw.C83_python1",
    "PyClaw.C83_unsplit2",
    "PyClaw.C83_unsplit3",
    "PyClaw.C83_split2",
    "PyClaw.C83_split3",
    "PyClaw.C83_fortran1_tvd",
    "PyClaw.C83_python1_tvd"
   ],
   "note": ""
  },
  {
   "property": "C84",
   "status": "proved",
   "theorems": [
    "PyClaw.C84_fortran1",
    "PyClaw.C84_python1",
    "PyClaw.C84_split2",
    "PyClaw.C84_split3",
    "PyClaw.C84_unsplit2",
    "PyClaw.C84_unsplit3"
   ],
   "note": ""
  },
  {
   "property": "C85",
   "status": "proved",
   "theorems": [
    "PyClaw.C85_orders",
    "PyClaw.C85_weno",
    "PyClaw.C85_convex",
    "PyClaw.C85_exact",
    "PyClaw.C85_smooth",
    "PyClaw.C85_mirror",
    "PyClaw.C85_reads",
    "PyClaw.C85_order5",
    "PyClaw.C85_literals"
   ],
   "note": "Exact arithmetic with the fractions that the printed literals abbreviate; C85_literals bounds the difference."
  },
  {
   "property": "C86",
   "status": "partial",
   "theorems": [
    "PyClaw.C86_flag",
    "PyClaw.C86_is_valid",
    "PyClaw.C86_solution",
    "PyClaw.C86_new",
    "PyClaw.C86_after_run_partial",
    "PyClaw.C86_second_run_violated"
   ],
   "note": "The check itself and new states: full. After a run: grids without mapping and classic solvers, where it is false in 2D and 3D (C86_second_run_violated)."
  },
  {
   "property": "C87",
   "status": "partial",
   "theorems": [
    "PyClaw.C87_read_partial",
    "PyClaw.C87_set_time",
    "PyClaw.C87_detached_violated",
    "PyClaw.C87_start_frame_violated",
    "PyClaw.C87_deepcopy",
    "PyClaw.C87_construct_partial",
    "PyClaw.C87_construct_violated"
   ],
   "note": "False for attributes other than t that are assigned through the solution, for start_frame, and for three documented forms of the constructor (violated theorems)."
  },
  {
   "property": "C88",
   "status": "partial",
   "theorems": [
    "PyClaw.C88_round_trip_partial",
    "PyClaw.C88_order",
    "PyClaw.C88_order_violated",
    "PyClaw.C88_equal_numbers_violated",
    "PyClaw.C88_append",
    "PyClaw.C88_derived_partial",
    "PyClaw.C88_derived_violated"
   ],
   "note": "Full for the content of the states; the order only for patch numbers of equal length (false otherwise, C88_order_violated), equal numbers and derived quantities of another number than equations fail (violated theorems). The HDF5 library is modelled as groups with attributes and data sets."
  },
  {
   "property": "C89",
   "status": "proved",
   "theorems": [
    "PyClaw.C89_invariant",
    "PyClaw.C89_linear",
    "PyClaw.C89_steady",
    "PyClaw.C89_python_conserves",
    "PyClaw.C89_python_uniform",
    "PyClaw.C89_alpha_needed"
   ],
   "note": "Stated for every affine subspace (C89_invariant), linear quantity (C89_linear) and data (C89_steady). The corollaries for the Fortran kernel have the exceptions of C69 and C68 and are listed there. SSPLMM: variable steps, or fixed steps without the third-order check. Exact arithmetic."
  },
  {
   "property": "C90",
   "status": "partial",
   "theorems": [
    "PyClaw.C90_fortran1",
    "PyClaw.C90_python1_partial",
    "PyClaw.C90_unsplit2",
    "PyClaw.C90_unsplit3_partial",
    "PyClaw.C90_split2_partial",
    "PyClaw.C90_split2_values_partial",
    "PyClaw.C90_split2_violated",
    "PyClaw.C90_split3_partial",
    "PyClaw.C90_split3_values_partial",
    "PyClaw.C90_split3_violated",
    "PyClaw.C90_split3_cfl_violated"
   ],
   "note": "Full for the Fortran 1D and the unsplit 2D kernels. Python kernel: limiters 0 to 16. Unsplit 3D kernel: except order 1 with transverse waves, where it reads what an earlier call left. Split 2D kernel: false along the first axis (C90_split2_violated), proved along the second, and for the values of single steps along both. Split 3D kernel: proved without a limiter along the third axis, and for the values of single steps along all; the Courant number is false along the other axes (C90_split3_cfl_violated) and with a limiter the values are (C90_split3_violated)."
  },
  {
   "property": "C91",
   "status": "partial",
   "theorems": [
    "PyClaw.C91_fortran1_partial",
    "PyClaw.C91_python1_partial",
    "PyClaw.C91_symmetric_partial",
    "PyClaw.C91_fwave_violated"
   ],
   "note": "Fortran: full for waves; with f-waves and second order no speed may be 0 (C91_fwave_violated). Python: limiters 0 to 16, and aux values continued like q and solvers that are their own image at walls (the kernel counts an interface too many on the left). One dimension."
  },
  {
   "property": "C92",
   "status": "partial",
   "theorems": [
    "PyClaw.C92_fortran1_partial",
    "PyClaw.C92_python1_partial",
    "PyClaw.C92_sharp_python_partial",
    "PyClaw.C92_python_first_order",
    "PyClaw.C92_sharp_python",
    "PyClaw.C92_unsplit2_partial",
    "PyClaw.C92_unsplit3_partial",
    "PyClaw.C92_sharp1_partial",
    "PyClaw.C92_sharp2_partial",
    "PyClaw.C92_sharp3_partial",
    "PyClaw.C92_split2_partial",
    "PyClaw.C92_split2_violated",
    "PyClaw.C92_split3_partial",
    "PyClaw.C92_split3_violated"
   ],
   "note": "Classic, Fortran: one dimension, and two and three without dimensional splitting, full for waves; with f-waves and second order no speed may be 0; in three dimensions not order 1 with correction terms. Python: limiters 0 to 16. SharpClaw: the reconstructions alike from both sides, capacity function only where dtdx is numbered as the cells; Python kernel: whole runs with and without WENO5 (C92_sharp_python), at least three ghost cells. Dimensional splitting in the plane: walls on the second axis; false on the first (C92_split2_violated: the Courant number counts ghost columns that the sweeps along x have not changed). In space: walls on the third axis for schemes without a limiter; false with one (C92_split3_violated: the sweeps do not reach the second ghost row, which the limiter reads)."
  },
  {
   "property": "C93",
   "status": "partial",
   "theorems": [
    "PyClaw.C93_ghost_coordinates",
    "PyClaw.C93_ghost_interior",
    "PyClaw.C93_c_center_one_dimension_partial",
    "PyClaw.C93_c_center_violated"
   ],
   "note": "Coordinates with ghost cells: full. c_center: one dimension (value nested one level too deep); false in more dimensions with current NumPy (C93_c_center_violated)."
  },
  {
   "property": "C94",
   "status": "partial",
   "theorems": [
    "PyClaw.C94_split_mirror_x_partial",
    "PyClaw.C94_split_mirror_y_partial",
    "PyClaw.C94_mirror_x_partial",
    "PyClaw.C94_mirror_y_partial",
    "PyClaw.C94_transpose",
    "PyClaw.C94_diagonal",
    "PyClaw.C94_transpose_split_violated"
   ],
   "note": "Exchange of the axes: full. Mirrors: full for waves; with f-waves and second order no speed across the mirror may be 0 (C91_fwave_violated). Dimensional splitting: mirrors proved in 2-D under the same restriction (C94_split_mirror_*_partial); false for the axes (C94_transpose_split_violated)."
  },
  {
   "property": "C95",
   "status": "partial",
   "theorems": [
    "PyClaw.C95_run",
    "PyClaw.C95_flux1_partial",
    "PyClaw.C95_flux2_partial",
    "PyClaw.C95_flux3_partial",
    "PyClaw.C95_tvd_wave_violated",
    "PyClaw.C95_python_violated",
    "PyClaw.C95_python_partial",
    "PyClaw.C95_python_first_order"
   ],
   "note": "Full for tvd2, the component-wise WENO reconstructions of all orders, weno5 and weno5_wave (num_ghost as chosen by the solver), Fortran kernels. False for tvd2_wave (C95_tvd_wave_violated). Not covered: capacity functions in a library built with reallocation on assignment (dtdx numbered from 1), reconstructions that are not modelled, callbacks that read neighbouring cells. Python kernel: what one dq adds to the cells is proved (C95_python_partial), everything without reconstruction (C95_python_first_order); false of its Courant number with WENO5 (C95_python_violated)."
  },
  {
   "property": "C96",
   "status": "partial",
   "theorems": [
    "PyClaw.C96_python_violated",
    "PyClaw.C96_python_partial",
    "PyClaw.C96_python_first_order",
    "PyClaw.C96_flux1_partial",
    "PyClaw.C96_flux2_partial",
    "PyClaw.C96_flux3_partial",
    "PyClaw.C96_tvd_wave_violated"
   ],
   "note": "As for C95: false for tvd2_wave (C96_tvd_wave_violated); Fortran kernels. Python kernel: what one dq adds to the cells is proved (C96_python_partial), whole runs without reconstruction (C96_python_first_order); false of its Courant number with WENO5 (C96_python_violated)."
  },
  {
   "property": "C97",
   "status": "partial",
   "theorems": [
    "PyClaw.C97_round_trip",
    "PyClaw.C97_header",
    "PyClaw.C97_aux_initial",
    "PyClaw.C97_stale_violated",
    "PyClaw.C97_derived",
    "PyClaw.C97_other_frames",
    "PyClaw.C97_text_violated",
    "PyClaw.C97_default_prefix_violated",
    "PyClaw.C97_global",
    "PyClaw.C97_global_aux"
   ],
   "note": "Full for the binary format with an explicit prefix. False for text formats (C97_text_violated), with the default prefixes of Solution.write and Solution.read (C97_default_prefix_violated), for aux when an aux file of an earlier run is left (C97_stale_violated), for times, problem_data and mapc2p that differ among the states. PETSc and pickle by contract."
  },
  {
   "property": "C98",
   "status": "partial",
   "theorems": [
    "PyClaw.C98_never_overwrites",
    "PyClaw.C98_new_frame_partial",
    "PyClaw.C98_race_violated",
    "PyClaw.C98_overwrites"
   ],
   "note": "If a file exists: full. On a new frame: full for one process; false for more (C98_race_violated). clobber=True: full."
  },
  {
   "property": "C99",
   "status": "partial",
   "theorems": [
    "PyClaw.C99_any_order",
    "PyClaw.C99_goes_on",
    "PyClaw.C99_exception_hangs_violated"
   ],
   "note": "Full for the classic solvers, every schedule, under the hypotheses of C64 (supported boundary conditions, cell-wise source terms and before_step, kernels that depend on num_ghost neighbours), if the kernel does not execute a Fortran stop. False if an exception is raised on some processes only (C99_exception_hangs_violated). Gauges and frame output during the run are not part of it."
  },
  {
   "property": "C100",
   "status": "partial",
   "theorems": [
    "PyClaw.C100_same_as_ascii",
    "PyClaw.C100_ascii_history_partial",
    "PyClaw.C100_forest_round_trip_partial",
    "PyClaw.C100_write_after_forest_violated",
    "PyClaw.C100_read_after_forest_violated",
    "PyClaw.C100_forest_new_process_violated"
   ],
   "note": "Holds in processes that use only the ASCII format, and in a process that uses the ForestClaw format for its ForestClaw frames. False for processes that use both (C100_write_after_forest_violated, C100_read_after_forest_violated) and for ForestClaw frames read by another process (C100_forest_new_process_violated). Without auxiliary files."
  },
  {
   "property": "C101",
   "status": "partial",
   "theorems": [
    "PyClaw.C101_sharp_python_partial",
    "PyClaw.C101_sharp_time_loop",
    "PyClaw.C101_sharp1_partial",
    "PyClaw.C101_sharp2_partial",
    "PyClaw.C101_sharp3_partial",
    "PyClaw.C101_sharp_weno_violated",
    "PyClaw.C101_sharp_fixed_step_violated",
    "PyClaw.C101_time_loop",
    "PyClaw.C101_fixed_step_partial",
    "PyClaw.C101_small_steps_refused",
    "PyClaw.C101_fortran1_partial",
    "PyClaw.C101_python1_partial",
    "PyClaw.C101_limited_components_violated",
    "PyClaw.C101_fixed_step_violated",
    "PyClaw.C101_unsplit2_partial",
    "PyClaw.C101_split2_partial",
    "PyClaw.C101_unsplit3_partial",
    "PyClaw.C101_split3_partial"
   ],
   "note": "Proved for variable time steps with both one-dimensional classic kernels (one unit for all components, or first order, or no limiter) and with the unsplit and the split scheme in two and three dimensions (in three dimensions unless uninitialised memory is read), and for fixed steps larger than 1e-10 that meet the final time exactly. False of fixed steps of at most 1e-10 (C101_small_steps_refused, C101_fixed_step_violated) and of limited systems whose components get different units (C101_limited_components_violated). SharpClaw in one, two and three dimensions with variable steps, all its time integrators and the Fortran kernels (C101_sharp_time_loop, C101_sharp1/2/3_partial): the componentwise TVD reconstruction with any units, the WENO reconstructions unless the unit of the solution changes (C101_sharp_weno_violated); with the Python kernel too (C101_sharp_python_partial); false of its fixed steps too (C101_sharp_fixed_step_violated)."
  },
  {
   "property": "C102",
   "status": "partial",
   "theorems": [
    "PyClaw.C102_split3_partial",
    "PyClaw.C102_sharp_python_partial",
    "PyClaw.C102_sharp1_partial",
    "PyClaw.C102_sharp2_partial",
    "PyClaw.C102_sharp3_partial",
    "PyClaw.C102_sharp_limiter_violated",
    "PyClaw.C102_fortran1_partial",
    "PyClaw.C102_python1_partial",
    "PyClaw.C102_unsplit2_partial",
    "PyClaw.C102_split2_partial",
    "PyClaw.C102_aux_violated",
    "PyClaw.C102_unsplit3_partial"
   ],
   "note": "Both one-dimensional kernels, the unsplit and the split scheme in the plane, the unsplit and, without limiter or at first order, the split scheme in three dimensions, walls on any of the axes. Missing: f-waves of speed 0 with second order across a wall, Python limiters 17 to 23, in three dimensions order 1 with transverse_waves 20 to 22 and the split scheme at second order with a limiter (false for a step, C71_split3_conserves_violated). SharpClaw with the Fortran kernels in one, two and three dimensions and all its time integrators (C102_sharp1/2/3_partial), without the reconstructions that are not modelled and with dq_src switched off, and with the Python kernel (C102_sharp_python_partial); false there for limiter 5 (C102_sharp_limiter_violated). False if the aux values are continued otherwise (C102_aux_violated)."
  },
  {
   "property": "C103",
   "status": "proved",
   "theorems": [
    "PyClaw.C103_fortran1",
    "PyClaw.C103_python1",
    "PyClaw.C103_unsplit2",
    "PyClaw.C103_split2",
    "PyClaw.C103_limiters_needed",
    "PyClaw.C103_unsplit3",
    "PyClaw.C103_split3"
   ],
   "note": ""
  },
  {
   "property": "C104",
   "status": "partial",
   "theorems": [
    "PyClaw.C104_abstol",
    "PyClaw.C104_reltol",
    "PyClaw.C104_entries",
    "PyClaw.C104_no_tolerance",
    "PyClaw.C104_zero_violated",
    "PyClaw.C104_test_app",
    "PyClaw.C104_three_items_violated",
    "PyClaw.C104_same_solution_partial",
    "PyClaw.C104_same_solution_violated"
   ],
   "note": "check_diff: full for arrays of the same shape, in exact arithmetic, except that expected values that are all zero are never accepted with a relative tolerance (C104_zero_violated). test_app: pass and fail are right, but verifiers that return three items as documented end in IndexError (C104_three_items_violated). check_solutions_are_same: full if the patches of the first solution have different indices, otherwise false (C104_same_solution_violated). Arrays of different shapes (broadcasting) are not covered."
  },
  {
   "property": "C105",
   "status": "partial",
   "theorems": [
    "PyClaw.C105_first_gauge_partial",
    "PyClaw.C105_other_gauges_violated",
    "PyClaw.C105_one_record_violated",
    "PyClaw.C105_compare",
    "PyClaw.C105_converted_passes",
    "PyClaw.C105_times_not_compared_violated"
   ],
   "note": "Proved for the first gauge that is converted. False of the others, because the comparison after it raises (C105_other_gauges_violated), and of files with one record (C105_one_record_violated). compare_old_gauges: proved for the values; false for levels and times (C105_times_not_compared_violated). Files of different shapes (broadcasting) are not covered."
  },
  {
   "property": "C106",
   "status": "partial",
   "theorems": [
    "PyClaw.C106_cached_is_max",
    "PyClaw.C106_parallel_is_serial",
    "PyClaw.C106_local_then_global",
    "PyClaw.C106_get_after_update_violated",
    "PyClaw.C106_cached_after_local_violated"
   ],
   "note": "Full for the calls that the solvers make (set_global_max, update_global_max, get_cached_max) and for set_local_max with get_global_max. False for the two mixtures C106_get_after_update_violated and C106_cached_after_local_violated, which no solver uses. The reduction by PETSc is a contract."
  },
  {
   "property": "C107",
   "status": "partial",
   "theorems": [
    "PyClaw.C107_mirror_partial",
    "PyClaw.C107_rotate_partial",
    "PyClaw.C107_exchange_partial",
    "PyClaw.C107_split_mirror_partial",
    "PyClaw.C107_exchange_split_violated"
   ],
   "note": "Mirrors across each axis and two permutations that generate all six orders of the axes, for every transverse_waves. Missing: f-waves of speed 0 with second order (C91_fwave_violated), order 1 with transverse_waves 20 to 22, where the step reads an old work array (C72_determined_violated). Dimensional splitting: mirrors proved under the same restriction on f-waves (C107_split_mirror_partial); false for the axes (C107_exchange_split_violated)."
  },
  {
   "property": "C108",
   "status": "partial",
   "theorems": [
    "PyClaw.C108_mirror_flux1_partial",
    "PyClaw.C108_mirror_flux2_partial",
    "PyClaw.C108_mirror_flux3_partial",
    "PyClaw.C108_axes_flux2_partial",
    "PyClaw.C108_axes_flux3_partial",
    "PyClaw.C108_limiter_violated",
    "PyClaw.C108_tvd_wave_violated",
    "PyClaw.C108_python_first_order_partial",
    "PyClaw.C108_python_first_order_violated",
    "PyClaw.C108_python_partial",
    "PyClaw.C108_python_violated"
   ],
   "note": "Mirrors in one, two and three dimensions and all permutations of the axes, for the componentwise reconstructions (TVD with minmod, superbee, van Leer or MC, all WENO orders, unlimited) and the wave-based WENO5. False for limiter 5 of the componentwise TVD reconstruction (C108_limiter_violated) and for the wave-based TVD reconstruction (C108_tvd_wave_violated). Python kernel: the increments of dq are the mirror image (C108_python_partial), its Courant number is not (C108_python_violated); whole runs without reconstruction (C108_python_first_order_partial), false if aux values are not continued like the solution (C108_python_first_order_violated). Missing: characteristic and transmission-based reconstructions, and capacity functions in a library built so that dtdx is numbered from 1."
  },
  {
   "property": "C109",
   "status": "partial",
   "theorems": [
    "PyClaw.C109_recorded",
    "PyClaw.C109_between_partial",
    "PyClaw.C109_fixed_partial",
    "PyClaw.C109_first_step_violated",
    "PyClaw.C109_last_step_violated",
    "PyClaw.C109_rejected_violated",
    "PyClaw.C109_fixed_violated"
   ],
   "note": "Variable steps of the classic solvers, unchanged settings: C109_recorded says what the two numbers are, C109_between_partial that the steps other than the excepted ones are between them. False for the first step (C109_first_step_violated), the step that ends at the final time (C109_last_step_violated), rejected steps (C109_rejected_violated) and fixed steps (C109_fixed_violated)."
  },
  {
   "property": "C110",
   "status": "partial",
   "theorems": [
    "PyClaw.C110_first_run",
    "PyClaw.C110_later_runs_partial",
    "PyClaw.C110_frozen",
    "PyClaw.C110_order_violated",
    "PyClaw.C110_limiters_violated",
    "PyClaw.C110_splitting_violated",
    "PyClaw.C110_parameters_violated",
    "PyClaw.C110_two_solvers_violated"
   ],
   "note": "C110_first_run: the first run of a solver follows its attributes or raises before any step, for every history of the process. C110_later_runs_partial: later runs follow the attributes after any harmless actions (Spec.Harmless). The rest is false: C110_order_violated, C110_limiters_violated, C110_splitting_violated, C110_parameters_violated, C110_two_solvers_violated; C110_frozen says what happens instead."
  },
  {
   "property": "C111",
   "status": "partial",
   "theorems": [
    "PyClaw.C111_up_to_date_partial",
    "PyClaw.C111_clean",
    "PyClaw.C111_no_work",
    "PyClaw.C111_one_edit",
    "PyClaw.C111_failed_compile_violated",
    "PyClaw.C111_same_time_violated",
    "PyClaw.C111_flags_violated",
    "PyClaw.C111_removed_violated",
    "PyClaw.C111_path_violated",
    "PyClaw.C111_one_object_violated",
    "PyClaw.C111_suffix_violated"
   ],
   "note": "C111_up_to_date_partial: after any history of edits and calls for the same library that starts from sources only, a call returns and the module is made of the current sources; C111_clean: with clean, from any files; C111_no_work and C111_one_edit: nothing unchanged is compiled. The rest is false: C111_failed_compile_violated, C111_same_time_violated, C111_flags_violated, C111_removed_violated, C111_path_violated, C111_one_object_violated, C111_suffix_violated."
  },
  {
   "property": "C112",
   "status": "partial",
   "theorems": [
    "PyClaw.C112_returns_after",
    "PyClaw.C112_first_only",
    "PyClaw.C112_no_deadlock_partial",
    "PyClaw.C112_terminates",
    "PyClaw.C112_comes_to_an_end",
    "PyClaw.C112_exception_violated",
    "PyClaw.C112_fewer_calls_violated",
    "PyClaw.C112_serial"
   ],
   "note": "For every number of processes, number of calls and schedule: C112_returns_after and C112_first_only hold without hypotheses. C112_no_deadlock_partial: no process waits in vain, if all make the same number of calls and the function raises nothing; without these hypotheses it is false (C112_exception_violated, C112_fewer_calls_violated: under every schedule some process waits forever). C112_terminates and C112_comes_to_an_end: every schedule ends. C112_serial: one process without petsc4py. The barrier of MPI is modelled (it is left when all have entered); the value of the function, which the decorator drops, is not."
  },
  {
   "property": "C113",
   "status": "partial",
   "theorems": [
    "PyClaw.C113_flux1_partial",
    "PyClaw.C113_python",
    "PyClaw.C113_flux2_partial",
    "PyClaw.C113_flux3_partial"
   ],
   "note": "One, two and three dimensions, Fortran and Python kernels, all sessions of evolve_to_time (sharpSessionC), periodic, extrapolation and wall boundaries in any combination. The Courant numbers of the reference run are those of the uniform state (they only decide about the steps). Missing: the component-wise TVD reconstruction of the Fortran kernels (0/0 on uniform data, C68), fewer than three ghost cells, custom boundary conditions."
  }
 ]
}