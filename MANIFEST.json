{
 "claims": [
  {
   "property": "C01",
   "status": "proved",
   "theorems": [
    "CDT.C01_accounting_identities",
    "CDT.C01_accounting_under_exceptions",
    "CDT.C01_counters_count_reports",
    "CDT.C01_exception_breaks_identities"
   ],
   "note": "Identities proved for every call history without exceptions escaping a transition; inequalities proved without that assumption; C01_exception_breaks_identities shows the assumption is needed (finding)."
  },
  {
   "property": "C02",
   "status": "proved",
   "theorems": [
    "CDT.C02_only_accepted_changes_state",
    "CDT.C02_sampled",
    "CDT.C02_run"
   ],
   "note": ""
  },
  {
   "property": "C03",
   "status": "proved",
   "theorems": [
    "CDT.C03_committed_states"
   ],
   "note": ""
  },
  {
   "property": "C04",
   "status": "proved",
   "theorems": [
    "CDT.C04_decision_ignores_cached_state",
    "CDT.C04_acceptance_rule",
    "CDT.C04_cached_geometry",
    "CDT.C04_cached_geometry_other_calls"
   ],
   "note": ""
  },
  {
   "property": "C05",
   "status": "proved",
   "theorems": [
    "CDT.C05_illegal_trial",
    "CDT.C05_unknown_move",
    "CDT.C05_legal_trial_errors"
   ],
   "note": ""
  },
  {
   "property": "C06",
   "status": "proved",
   "theorems": [
    "CDT.C06_trace_is_digest",
    "CDT.C06_one_entry_changes_digest",
    "CDT.C06_one_byte_changes_digest",
    "CDT.C06_extension"
   ],
   "note": ""
  },
  {
   "property": "C07",
   "status": "proved",
   "theorems": [
    "CDT.Props.C07_error_iff",
    "CDT.Props.C07_unit_interval",
    "CDT.Props.C07_accepts_iff",
    "CDT.Props.C07_metropolis_hastings",
    "CDT.Props.C07_detailed_balance"
   ],
   "note": ""
  },
  {
   "property": "C08",
   "status": "proved",
   "theorems": [
    "CDT.Props.C08_site_counts_positive",
    "CDT.Props.C08_acceptance_defined"
   ],
   "note": ""
  },
  {
   "property": "C09",
   "status": "proved",
   "theorems": [
    "CDT.Props.C09_site_count",
    "CDT.Props.C09_one_site",
    "CDT.Props.C09_unique_site",
    "CDT.Props.C09_proposal_probability",
    "CDT.Props.C09_not_proposed",
    "CDT.Props.C09_hastings_uses_it"
   ],
   "note": ""
  },
  {
   "property": "C10",
   "status": "partial",
   "theorems": [
    "CDT.Props.C10_balanced_iff_partial",
    "CDT.Props.C10_two_three_balanced_partial",
    "CDT.Props.C10_four_four_balanced_partial",
    "CDT.Props.C10_two_six_balanced_partial",
    "CDT.Props.C10_detailed_balance_fails"
   ],
   "note": "The unrestricted claim is false of the code: C10_detailed_balance_fails exhibits two sound manifolds with positive flow one way and zero proposal probability back (finding 1: the (2,3) proposal only ever uses the first qualifying facet of a cell). Proved: flows between any two manifolds joined by a move balance if and only if the reverse proposal can return the original (C10_balanced_iff_partial), and therefore always for (4,4), for checked (2,6), and for (2,3) when CGAL accepts the reverse flip. States are manifolds with coordinates; (6,2) re-inserts at the centroid (C25_six_two_undone)."
  },
  {
   "property": "C11",
   "status": "proved",
   "theorems": [
    "CDT.C11_fifo_exact_accounting",
    "CDT.C11_attempted_eq",
    "CDT.C11_undeclared_code_terminates"
   ],
   "note": ""
  },
  {
   "property": "C12",
   "status": "proved",
   "theorems": [
    "CDT.C12_exception_safety",
    "CDT.C12_reexecution"
   ],
   "note": ""
  },
  {
   "property": "C13",
   "status": "proved",
   "theorems": [
    "CDT.C13_metropolis_pass_lengths",
    "CDT.C13_always_pass_lengths"
   ],
   "note": ""
  },
  {
   "property": "C14",
   "status": "proved",
   "theorems": [
    "CDT.C14_observer_is_transparent",
    "CDT.C14_checkpoint_schedule",
    "CDT.C14_metropolis_events"
   ],
   "note": ""
  },
  {
   "property": "C15",
   "status": "proved",
   "theorems": [
    "CDT.C15_metropolis_throw",
    "CDT.C15_metropolis_fresh_statistics",
    "CDT.C15_always_throw",
    "CDT.C15_always_fresh_statistics"
   ],
   "note": ""
  },
  {
   "property": "C16",
   "status": "proved",
   "theorems": [
    "CDT.C16_cadence_accepts_iff",
    "CDT.C16_cadence_diagnostics",
    "CDT.C16_no_division_by_zero"
   ],
   "note": ""
  },
  {
   "property": "C17",
   "status": "proved",
   "theorems": [
    "CDT.C17_add_exact",
    "CDT.C17_total",
    "CDT.C17_accessors",
    "CDT.C17_indexing",
    "CDT.C17_accumulate_consume",
    "CDT.C17_no_overflow",
    "CDT.C17_overflow_boundary"
   ],
   "note": ""
  },
  {
   "property": "C18",
   "status": "proved",
   "theorems": [
    "CDT.C18_failure_classification",
    "CDT.C18_outcome_predicates",
    "CDT.C18_messages_distinct"
   ],
   "note": ""
  },
  {
   "property": "C19",
   "status": "proved",
   "theorems": [
    "CDT.Props.C19_two_three_effect",
    "CDT.Props.C19_two_three_reported"
   ],
   "note": ""
  },
  {
   "property": "C20",
   "status": "proved",
   "theorems": [
    "CDT.Props.C20_three_two_effect",
    "CDT.Props.C20_three_two_reported"
   ],
   "note": ""
  },
  {
   "property": "C21",
   "status": "proved",
   "theorems": [
    "CDT.Props.C21_two_six_subdivision",
    "CDT.Props.C21_two_six_effect",
    "CDT.Props.C21_check_move_iff_slice"
   ],
   "note": ""
  },
  {
   "property": "C22",
   "status": "proved",
   "theorems": [
    "CDT.Props.C22_six_two_effect",
    "CDT.Props.C22_six_two_reported"
   ],
   "note": ""
  },
  {
   "property": "C23",
   "status": "proved",
   "theorems": [
    "CDT.Props.C23_four_four_effect",
    "CDT.Props.C23_four_four_reported"
   ],
   "note": ""
  },
  {
   "property": "C24",
   "status": "proved",
   "theorems": [
    "CDT.Props.C24_move_preserves",
    "CDT.Props.C24_two_six_topology",
    "CDT.Props.C24_two_six_preserves_iff",
    "CDT.Props.C24_history_preserves",
    "CDT.Props.C24_triangle_degree"
   ],
   "note": ""
  },
  {
   "property": "C25",
   "status": "proved",
   "theorems": [
    "CDT.Props.C25_two_three_undone",
    "CDT.Props.C25_four_four_undone",
    "CDT.Props.C25_two_six_undone",
    "CDT.Props.C25_six_two_undone",
    "CDT.Props.C25_three_two_undone_iff",
    "CDT.Props.C25_three_two_may_be_irreversible"
   ],
   "note": ""
  },
  {
   "property": "C26",
   "status": "proved",
   "theorems": [
    "CDT.Props.C26_no_existing_storage_written",
    "CDT.Props.C26_source_unchanged",
    "CDT.Props.C26_failure_leaves_nothing",
    "CDT.Props.C26_no_partial_result",
    "CDT.Props.C26_success_leaves_only_result",
    "CDT.Props.C26_do_move_refines",
    "CDT.Props.C26_propose_refines"
   ],
   "note": ""
  },
  {
   "property": "C27",
   "status": "proved",
   "theorems": [
    "CDT.Props.C27_accepts_iff_site",
    "CDT.Props.C27_returns_site",
    "CDT.Props.C27_removal_types",
    "CDT.Props.C27_counts_suffice"
   ],
   "note": ""
  },
  {
   "property": "C28",
   "status": "proved",
   "theorems": [
    "CDT.Props.C28_accepts_iff_site",
    "CDT.Props.C28_exchange_types"
   ],
   "note": ""
  },
  {
   "property": "C29",
   "status": "proved",
   "theorems": [
    "CDT.Props.C29_three_two_accepts_iff_site",
    "CDT.Props.C29_three_two_types",
    "CDT.Props.C29_two_three_selects_first_site",
    "CDT.Props.C29_two_three_accepts_iff_site",
    "CDT.Props.C29_two_three_types"
   ],
   "note": ""
  },
  {
   "property": "C30",
   "status": "proved",
   "theorems": [
    "CDT.Props.C30_partner_unique",
    "CDT.Props.C30_accepts_iff_site",
    "CDT.Props.C30_spacelike_check_never_fails",
    "CDT.Props.C30_infinite_partner_accepted"
   ],
   "note": ""
  },
  {
   "property": "C31",
   "status": "proved",
   "theorems": [
    "CDT.Props.C31_accepted_vertex_on_slice",
    "CDT.Props.C31_slice_criterion",
    "CDT.Props.C31_edge_length_criterion",
    "CDT.Props.C31_do_26_move_may_leave_slice"
   ],
   "note": ""
  },
  {
   "property": "C32",
   "status": "proved",
   "theorems": [
    "CDT.C32_check_move_iff_contract",
    "CDT.C32_check_move_discriminates"
   ],
   "note": ""
  },
  {
   "property": "C33",
   "status": "proved",
   "theorems": [
    "CDT.Props.C33_first_success",
    "CDT.Props.C33_suffix_irrelevant",
    "CDT.Props.C33_last_error",
    "CDT.Props.C33_no_candidate_iff",
    "CDT.Props.C33_two_three_succeeds_iff",
    "CDT.Props.C33_three_two_succeeds_iff",
    "CDT.Props.C33_four_four_succeeds_iff",
    "CDT.Props.C33_six_two_succeeds_iff",
    "CDT.Props.C33_two_six_succeeds_iff"
   ],
   "note": ""
  },
  {
   "property": "C34",
   "status": "proved",
   "theorems": [
    "CDT.Props.C34_choice_order_independent",
    "CDT.Props.C34_index_bijection",
    "CDT.Props.C34_moves_order_independent",
    "CDT.Props.C34_proposal_site_bijection"
   ],
   "note": ""
  },
  {
   "property": "C35",
   "status": "proved",
   "theorems": [
    "CDT.Props.C35_classification",
    "CDT.Props.C35_order_independent",
    "CDT.Props.C35_symmetries",
    "CDT.Props.C35_label_correct_iff"
   ],
   "note": ""
  },
  {
   "property": "C36",
   "status": "proved",
   "theorems": [
    "CDT.Props.C36_partition_identities",
    "CDT.Props.C36_caches_partition",
    "CDT.Props.C36_slice_count",
    "CDT.Props.C36_slices_sum"
   ],
   "note": ""
  },
  {
   "property": "C37",
   "status": "proved",
   "theorems": [
    "CDT.Props.C37_fix_vertices",
    "CDT.Props.C37_fix_vertices_idempotent",
    "CDT.Props.C37_fix_cells",
    "CDT.Props.C37_fix_cells_causal",
    "CDT.Props.C37_fix_cells_idempotent",
    "CDT.Props.C37_fix_cells_reports_without_change",
    "CDT.Props.C37_methods_on_constructed"
   ],
   "note": "Includes C37_fix_cells_reports_without_change: fix_cells keeps returning true on acausal cells although it changes nothing (finding)."
  },
  {
   "property": "C38",
   "status": "proved",
   "theorems": [
    "CDT.Props.C38_bad_vertex_choice",
    "CDT.Props.C38_has_valid_timevalues",
    "CDT.Props.C38_bad_vertex_extreme",
    "CDT.Props.C38_pass",
    "CDT.Props.C38_terminates"
   ],
   "note": ""
  },
  {
   "property": "C39",
   "status": "partial",
   "theorems": [
    "CDT.Props.C39_foliated_iff",
    "CDT.Props.C39_result_labels",
    "CDT.Props.C39_small_partial",
    "CDT.Props.C39_pass_limit_leaves_acausal"
   ],
   "note": "The construction loop runs at most 50 passes. Proved: characterisation of when the result is foliated, and that it always is when the input has at most 50 removable points (C39_small_partial). The unrestricted claim is false: C39_pass_limit_leaves_acausal gives an input on which the limit is reached and an acausal cell remains."
  },
  {
   "property": "C40",
   "status": "proved",
   "theorems": [
    "CDT.Props.C40_near_slice",
    "CDT.Props.C40_half_is_sharp",
    "CDT.Props.C40_generated_layer",
    "CDT.Props.C40_mutually_inverse",
    "CDT.Props.C40_robust",
    "CDT.Props.C40_layers_ordered"
   ],
   "note": ""
  },
  {
   "property": "C41",
   "status": "proved",
   "theorems": [
    "CDT.Props.C41_bounds_attained",
    "CDT.Props.C41_rejected_iff_empty",
    "CDT.Props.C41_empty_error"
   ],
   "note": ""
  },
  {
   "property": "C42",
   "status": "proved",
   "theorems": [
    "CDT.Props.C42_binding",
    "CDT.Props.C42_not_shared",
    "CDT.Props.C42_unique_owner",
    "CDT.Props.C42_never_dangling",
    "CDT.Props.C42_no_leak",
    "CDT.Props.C42_construction_has_own_grid",
    "CDT.Props.C42_move_transfers",
    "CDT.Props.C42_copy_assignment",
    "CDT.Props.C42_detach",
    "CDT.Props.C42_snapshot",
    "CDT.Props.C42_sequential"
   ],
   "note": ""
  },
  {
   "property": "C43",
   "status": "proved",
   "theorems": [
    "CDT.Props.C43_no_shared_storage",
    "CDT.Props.C43_handles_are_own",
    "CDT.Props.C43_moved_from_has_no_handles",
    "CDT.Props.C43_independent",
    "CDT.Props.C43_copy",
    "CDT.Props.C43_copy_assign",
    "CDT.Props.C43_move",
    "CDT.Props.C43_swap",
    "CDT.Props.C43_move_assign",
    "CDT.Props.C43_updated",
    "CDT.Props.C43_updated_empty",
    "CDT.Props.C43_always_consistent",
    "CDT.Props.C43_construct"
   ],
   "note": ""
  },
  {
   "property": "C44",
   "status": "proved",
   "theorems": [
    "CDT.Props.C44_action_is_real"
   ],
   "note": ""
  },
  {
   "property": "C45",
   "status": "proved",
   "theorems": [
    "CDT.Props.C45_general",
    "CDT.Props.C45_alpha_one",
    "CDT.Props.C45_alpha_minus_one"
   ],
   "note": ""
  },
  {
   "property": "C46",
   "status": "proved",
   "theorems": [
    "CDT.Props.C46_accepted_iff",
    "CDT.Props.C46_non_finite_first",
    "CDT.Props.C46_domain_error_iff",
    "CDT.Props.C46_fixed_alpha_validation"
   ],
   "note": ""
  },
  {
   "property": "C47",
   "status": "proved",
   "theorems": [
    "CDT.Props.C47_triangulation_iff",
    "CDT.Props.C47_simulation_iff",
    "CDT.Props.C47_accepted_builds_ball",
    "CDT.Props.C47_simulation_meets_metropolis"
   ],
   "note": ""
  },
  {
   "property": "C48",
   "status": "proved",
   "theorems": [
    "CDT.Props.C48_accepted_iff",
    "CDT.Props.C48_otherwise_out_of_range",
    "CDT.Props.C48_population_range",
    "CDT.Props.C48_vertex_total",
    "CDT.Props.C48_vertex_total_otherwise",
    "CDT.Props.C48_invalid_argument_iff",
    "CDT.Props.C48_vertex_total_invalid_iff"
   ],
   "note": ""
  },
  {
   "property": "C49",
   "status": "proved",
   "theorems": [
    "CDT.Props.C49_monotone",
    "CDT.Props.C49_smaller_requests_accepted"
   ],
   "note": ""
  },
  {
   "property": "C50",
   "status": "proved",
   "theorems": [
    "CDT.Props.C50_delaunay_bound"
   ],
   "note": ""
  },
  {
   "property": "C51",
   "status": "proved",
   "theorems": [
    "CDT.Props.C51_split_ignores_position",
    "CDT.Props.C51_draws_determined_by_seed_and_stream",
    "CDT.Props.C51_split_identity",
    "CDT.Props.C51_replay"
   ],
   "note": ""
  },
  {
   "property": "C52",
   "status": "proved",
   "theorems": [
    "CDT.Props.C52_round_trip",
    "CDT.Props.C52_accepts_iff",
    "CDT.Props.C52_rejects_with_filesystem_error",
    "CDT.Props.C52_accepted_indices",
    "CDT.Props.C52_rejects_count_mismatch"
   ],
   "note": ""
  },
  {
   "property": "C53",
   "status": "proved",
   "theorems": [
    "CDT.Props.C53_round_trip",
    "CDT.Props.C53_rejects_invalid",
    "CDT.Props.C53_accepts_iff",
    "CDT.Props.C53_rejects_with_filesystem_error",
    "CDT.Props.C53_rejects_duplicate_field",
    "CDT.Props.C53_text_injective"
   ],
   "note": ""
  },
  {
   "property": "C54",
   "status": "proved",
   "theorems": [
    "CDT.Props.C54_digest_published",
    "CDT.Props.C54_refuses_unless_collision",
    "CDT.Props.C54_single_byte",
    "CDT.Props.C54_length",
    "CDT.Props.C54_truncation",
    "CDT.Props.C54_deleted",
    "CDT.Props.C54_every_byte_accounted"
   ],
   "note": ""
  },
  {
   "property": "C55",
   "status": "proved",
   "theorems": [
    "CDT.Props.C55_payload_never_partial",
    "CDT.Props.C55_old_or_new",
    "CDT.Props.C55_provenance_matches",
    "CDT.Props.C55_without_manifest",
    "CDT.Props.C55_concurrent_reader"
   ],
   "note": ""
  },
  {
   "property": "C56",
   "status": "proved",
   "theorems": [
    "CDT.Props.C56_failure_harmless",
    "CDT.Props.C56_no_debris",
    "CDT.Props.C56_no_debris_on_success",
    "CDT.Props.C56_late_rename_failure_destroys_old"
   ],
   "note": ""
  },
  {
   "property": "C57",
   "status": "proved",
   "theorems": [
    "CDT.Props.C57_mutual_exclusion",
    "CDT.Props.C57_no_nesting",
    "CDT.Props.C57_operations_serial",
    "CDT.Props.C57_reentrant_refused_iff",
    "CDT.Props.C57_released",
    "CDT.Props.C57_never_relocks",
    "CDT.Props.C57_no_deadlock"
   ],
   "note": ""
  },
  {
   "property": "C58",
   "status": "proved",
   "theorems": [
    "CDT.Props.C58_placement_order_independent",
    "CDT.Props.C58_topology_order_independent",
    "CDT.Props.C58_defined_without_coincidence",
    "CDT.Props.C58_fails_only_on_budget",
    "CDT.Props.C58_defined_within_budget",
    "CDT.Props.C58_defined_small"
   ],
   "note": "Order independence of both fingerprints; with coincident vertices the only failure is the exhausted search budget, and the search makes progress: it succeeds whenever an explicit bound on its work fits in the budget (always with at most seven vertices and cells)."
  },
  {
   "property": "C59",
   "status": "proved",
   "theorems": [
    "CDT.Props.C59_checkpoint_names",
    "CDT.Props.C59_artifact_names",
    "CDT.Props.C59_unseeded_names",
    "CDT.Props.C59_kinds_distinct",
    "CDT.Props.C59_no_directories",
    "CDT.Props.C59_close_radii_collide"
   ],
   "note": ""
  },
  {
   "property": "C60",
   "status": "proved",
   "theorems": [
    "CDT.Props.C60_counts_fit",
    "CDT.Props.C60_read_back",
    "CDT.Props.C60_counts_checked",
    "CDT.Props.C60_manifest_checks",
    "CDT.Props.C60_write_succeeds",
    "CDT.Props.C60_stale_manifest_not_noticed"
   ],
   "note": ""
  },
  {
   "property": "C61",
   "status": "proved",
   "theorems": [
    "CDT.Props.C61_transition_total"
   ],
   "note": ""
  },
  {
   "property": "C62",
   "status": "proved",
   "theorems": [
    "CDT.Props.C62_run_total"
   ],
   "note": ""
  },
  {
   "property": "C63",
   "status": "proved",
   "theorems": [
    "CDT.Props.C63_batch_total",
    "CDT.Props.C63_always_run_total"
   ],
   "note": ""
  },
  {
   "property": "C64",
   "status": "proved",
   "theorems": [
    "CDT.Props.C64_provenance_true"
   ],
   "note": ""
  },
  {
   "property": "C65",
   "status": "proved",
   "theorems": [
    "CDT.Props.C65_artifacts_persist",
    "CDT.Props.C65_artifacts_readable"
   ],
   "note": ""
  },
  {
   "property": "C66",
   "status": "proved",
   "theorems": [
    "CDT.Props.C66_configured_by",
    "CDT.Props.C66_exit_status",
    "CDT.Props.C66_nothing_written",
    "CDT.Props.C66_success_means",
    "CDT.Props.C66_succeeds",
    "CDT.Props.C66_no_output"
   ],
   "note": ""
  },
  {
   "property": "C67",
   "status": "proved",
   "theorems": [
    "CDT.Props.C67_recorded_seed",
    "CDT.Props.C67_replay"
   ],
   "note": ""
  },
  {
   "property": "C68",
   "status": "proved",
   "theorems": [
    "CDT.Props.C68_same_configuration",
    "CDT.Props.C68_initialize",
    "CDT.Props.C68_same_universe"
   ],
   "note": ""
  },
  {
   "property": "C69",
   "status": "proved",
   "theorems": [
    "CDT.Props.C69_nothing_written_unless_validated",
    "CDT.Props.C69_success_means",
    "CDT.Props.C69_timeout",
    "CDT.Props.C69_exit_status",
    "CDT.Props.C69_stale_image_accepted"
   ],
   "note": "Includes C69_stale_image_accepted: success does not imply the image was made by this run when saveSnapshot silently does nothing (finding)."
  },
  {
   "property": "C70",
   "status": "proved",
   "theorems": [
    "CDT.Props.C70_manifest_sound",
    "CDT.Props.C70_manifest_complete",
    "CDT.Props.C70_refused_with",
    "CDT.Props.C70_consequences",
    "CDT.Props.C70_size_may_underflow"
   ],
   "note": "Includes C70_size_may_underflow (finding). Completeness needs the frame buffer, rounded up, to be practical; soundness gives it rounded down, since long double rounding is arbitrary but lawful."
  },
  {
   "property": "C71",
   "status": "proved",
   "theorems": [
    "CDT.Props.C71_scene_exists",
    "CDT.Props.C71_face_color",
    "CDT.Props.C71_orientation",
    "CDT.Props.C71_vertices",
    "CDT.Props.C71_hull",
    "CDT.Props.C71_storage_order"
   ],
   "note": ""
  },
  {
   "property": "C72",
   "status": "proved",
   "theorems": [
    "CDT.Props.C72_outline",
    "CDT.Props.C72_transparent_untouched",
    "CDT.Props.C72_foreground_preserved",
    "CDT.Props.C72_foreground_count",
    "CDT.Props.C72_range",
    "CDT.Props.C72_extremes"
   ],
   "note": ""
  },
  {
   "property": "C73",
   "status": "proved",
   "theorems": [
    "CDT.Props.C73_checkpoints_true",
    "CDT.Props.C73_write_universe",
    "CDT.Props.C73_write_plain"
   ],
   "note": ""
  },
  {
   "property": "C74",
   "status": "proved",
   "theorems": [
    "CDT.Props.C74_replay",
    "CDT.Props.C74_recorded_stream"
   ],
   "note": ""
  },
  {
   "property": "C75",
   "status": "proved",
   "theorems": [
    "CDT.Props.C75_flip_iff",
    "CDT.Props.C75_flip_effect",
    "CDT.Props.C75_top_does_not_matter",
    "CDT.Props.C75_opposite",
    "CDT.Props.C75_undo",
    "CDT.Props.C75_causal",
    "CDT.Props.C75_not_causal",
    "CDT.Props.C75_pivot",
    "CDT.Props.C75_vertices"
   ],
   "note": ""
  },
  {
   "property": "C76",
   "status": "proved",
   "theorems": [
    "CDT.Props.C76_layer_label",
    "CDT.Props.C76_ball_checks",
    "CDT.Props.C76_absorbed",
    "CDT.Props.C76_match_complete",
    "CDT.Props.C76_match_sound",
    "CDT.Props.C76_match_ambiguous"
   ],
   "note": ""
  },
  {
   "property": "C77",
   "status": "proved",
   "theorems": [
    "CDT.Props.C77_tests_agree",
    "CDT.Props.C77_correct_iff",
    "CDT.Props.C77_default",
    "CDT.Props.C77_diagnostics_exact",
    "CDT.Props.C77_time_bounds"
   ],
   "note": ""
  },
  {
   "property": "C78",
   "status": "proved",
   "theorems": [
    "CDT.Props.C78_make_causal_vertices",
    "CDT.Props.C78_accepts_iff",
    "CDT.Props.C78_vertices",
    "CDT.Props.C78_times_ignored"
   ],
   "note": ""
  },
  {
   "property": "C79",
   "status": "proved",
   "theorems": [
    "CDT.Props.C79_action_error",
    "CDT.Props.C79_acceptance_error",
    "CDT.Props.C79_decision",
    "CDT.Props.C79_alpha_one_error",
    "CDT.Props.C79_alpha_minus_one_error"
   ],
   "note": ""
  },
  {
   "property": "C80",
   "status": "proved",
   "theorems": [
    "CDT.Props.C80_formula_agrees",
    "CDT.Props.C80_programs_agree",
    "CDT.Props.C80_alpha_minus_one_agrees"
   ],
   "note": ""
  },
  {
   "property": "C81",
   "status": "proved",
   "theorems": [
    "CDT.Props.C81_initial_universe",
    "CDT.Props.C81_every_artifact",
    "CDT.Props.C81_files_causal",
    "CDT.Props.C81_succeeds",
    "CDT.Props.C81_acausal_start_not_noticed"
   ],
   "note": ""
  },
  {
   "property": "C82",
   "status": "proved",
   "theorems": [
    "CDT.Props.C82_covers_hull",
    "CDT.Props.C82_covers",
    "CDT.Props.C82_strict",
    "CDT.Props.C82_margin",
    "CDT.Props.C82_no_points",
    "CDT.Props.C82_width_lost"
   ],
   "note": ""
  },
  {
   "property": "C83",
   "status": "proved",
   "theorems": [
    "CDT.Props.C83_transition_iff",
    "CDT.Props.C83_transition_probability",
    "CDT.Props.C83_no_transition",
    "CDT.Props.C83_detailed_balance_rounded"
   ],
   "note": ""
  },
  {
   "property": "C84",
   "status": "proved",
   "theorems": [
    "CDT.Props.C84_move",
    "CDT.Props.C84_history",
    "CDT.Props.C84_reversible",
    "CDT.Props.C84_invariants",
    "CDT.Props.C84_run",
    "CDT.Props.C84_every_artifact"
   ],
   "note": ""
  },
  {
   "property": "C85",
   "status": "proved",
   "theorems": [
    "CDT.Props.C85_two_three",
    "CDT.Props.C85_three_two",
    "CDT.Props.C85_four_four",
    "CDT.Props.C85_two_six",
    "CDT.Props.C85_six_two",
    "CDT.Props.C85_history",
    "CDT.Props.C85_ends"
   ],
   "note": ""
  },
  {
   "property": "C86",
   "status": "proved",
   "theorems": [
    "CDT.Props.C86_probability_one",
    "CDT.Props.C86_probability_defined",
    "CDT.Props.C86_four_four_never_rejected",
    "CDT.Props.C86_four_four_accepted",
    "CDT.Props.C86_run_tallies",
    "CDT.Props.C86_history_tallies"
   ],
   "note": ""
  },
  {
   "property": "C87",
   "status": "proved",
   "theorems": [
    "CDT.Props.C87_every_checkpoint",
    "CDT.Props.C87_files_causal",
    "CDT.Props.C87_succeeds",
    "CDT.Props.C87_initialize_causal",
    "CDT.Props.C87_initialize_succeeds"
   ],
   "note": ""
  },
  {
   "property": "C88",
   "status": "proved",
   "theorems": [
    "CDT.Props.C88_validated_accepted",
    "CDT.Props.C88_exit_zero",
    "CDT.Props.C88_accepts",
    "CDT.Props.C88_cdt",
    "CDT.Props.C88_initialize",
    "CDT.Props.C88_always"
   ],
   "note": ""
  },
  {
   "property": "C89",
   "status": "proved",
   "theorems": [
    "CDT.Props.C89_digest_of_text",
    "CDT.Props.C89_text_determines",
    "CDT.Props.C89_placement_identifies",
    "CDT.Props.C89_topology_identifies",
    "CDT.Props.C89_topology_iff",
    "CDT.Props.C89_read_back",
    "CDT.Props.C89_crash",
    "CDT.Props.C89_manifest_identifies"
   ],
   "note": ""
  },
  {
   "property": "C90",
   "status": "proved",
   "theorems": [
    "CDT.Props.C90_constructor",
    "CDT.Props.C90_fresh",
    "CDT.Props.C90_convenience",
    "CDT.Props.C90_checkpoints_true",
    "CDT.Props.C90_published",
    "CDT.Props.C90_replay"
   ],
   "note": ""
  },
  {
   "property": "C91",
   "status": "proved",
   "theorems": [
    "CDT.C91_metropolis_report",
    "CDT.C91_metropolis_interrupted",
    "CDT.C91_always_report",
    "CDT.C91_always_interrupted",
    "CDT.C91_report_determines",
    "CDT.C91_output_changes_nothing",
    "CDT.C91_always_output_changes_nothing"
   ],
   "note": ""
  },
  {
   "property": "C92",
   "status": "proved",
   "theorems": [
    "CDT.Props.C92_portrait",
    "CDT.Props.C92_areas_sum",
    "CDT.Props.C92_edges",
    "CDT.Props.C92_delaunay",
    "CDT.Props.C92_portrait_determines",
    "CDT.Props.C92_command"
   ],
   "note": ""
  },
  {
   "property": "C93",
   "status": "proved",
   "theorems": [
    "CDT.Props.C93_cdt_says",
    "CDT.Props.C93_cdt_interrupted",
    "CDT.Props.C93_messages",
    "CDT.Props.C93_cdt_output_changes_nothing",
    "CDT.Props.C93_initialize_output_changes_nothing",
    "CDT.Props.C93_initialize_says",
    "CDT.Props.C93_initialize_interrupted",
    "CDT.Props.C93_whole"
   ],
   "note": ""
  },
  {
   "property": "C94",
   "status": "proved",
   "theorems": [
    "CDT.Props.C94_prints_truth",
    "CDT.Props.C94_success",
    "CDT.Props.C94_failure",
    "CDT.Props.C94_output_changes_nothing",
    "CDT.Props.C94_quit_announces_nothing"
   ],
   "note": "Includes C94_quit_announces_nothing (finding): with an external quit the announcement is false."
  },
  {
   "property": "C95",
   "status": "proved",
   "theorems": [
    "CDT.Props.C95_propose",
    "CDT.Props.C95_do_move",
    "CDT.Props.C95_transition",
    "CDT.Props.C95_history"
   ],
   "note": ""
  },
  {
   "property": "C96",
   "status": "proved",
   "theorems": [
    "CDT.Props.C96_markov",
    "CDT.Props.C96_stays",
    "CDT.Props.C96_stochastic",
    "CDT.Props.C96_step",
    "CDT.Props.C96_run"
   ],
   "note": ""
  },
  {
   "property": "C97",
   "status": "proved",
   "theorems": [
    "CDT.Props.C97_in_order",
    "CDT.Props.C97_transitions_return",
    "CDT.Props.C97_every_checkpoint",
    "CDT.Props.C97_files_causal",
    "CDT.Props.C97_succeeds",
    "CDT.Props.C97_second_run_overwrites"
   ],
   "note": ""
  },
  {
   "property": "C98",
   "status": "proved",
   "theorems": [
    "CDT.Props.C98_propose",
    "CDT.Props.C98_do_move",
    "CDT.Props.C98_transition",
    "CDT.Props.C98_history",
    "CDT.Props.C98_queued_move",
    "CDT.Props.C98_batch",
    "CDT.Props.C98_always"
   ],
   "note": ""
  },
  {
   "property": "C99",
   "status": "proved",
   "theorems": [
    "CDT.Props.C99_in_order",
    "CDT.Props.C99_calls_return"
   ],
   "note": ""
  },
  {
   "property": "C100",
   "status": "proved",
   "theorems": [
    "CDT.Props.C100_moves",
    "CDT.Props.C100_exactly",
    "CDT.Props.C100_euler",
    "CDT.Props.C100_spheres",
    "CDT.Props.C100_history",
    "CDT.Props.C100_programs"
   ],
   "note": ""
  },
  {
   "property": "C101",
   "status": "proved",
   "theorems": [
    "CDT.Props.C101_forgets",
    "CDT.Props.C101_boltzmann"
   ],
   "note": ""
  },
  {
   "property": "C102",
   "status": "proved",
   "theorems": [
    "CDT.Props.C102_probabilities",
    "CDT.Props.C102_step",
    "CDT.Props.C102_run",
    "CDT.Props.C102_closed_family"
   ],
   "note": ""
  },
  {
   "property": "C103",
   "status": "proved",
   "theorems": [
    "CDT.Props.C103_usage",
    "CDT.Props.C103_exit_zero_true",
    "CDT.Props.C103_ends",
    "CDT.Props.C103_files",
    "CDT.Props.C103_succeeds"
   ],
   "note": ""
  },
  {
   "property": "C104",
   "status": "proved",
   "theorems": [
    "CDT.Props.C104_tables",
    "CDT.Props.C104_words",
    "CDT.Props.C104_documented",
    "CDT.Props.C104_cdt",
    "CDT.Props.C104_initialize",
    "CDT.Props.C104_viewer",
    "CDT.Props.C104_cdt_program",
    "CDT.Props.C104_initialize_program",
    "CDT.Props.C104_viewer_program",
    "CDT.Props.C104_order",
    "CDT.Props.C104_plain",
    "CDT.Props.C104_stray_words",
    "CDT.Props.C104_negative_seed"
   ],
   "note": ""
  },
  {
   "property": "C105",
   "status": "proved",
   "theorems": [
    "CDT.Props.C105_is_fixed",
    "CDT.Props.C105_yes_shrinks",
    "CDT.Props.C105_no_is_causal",
    "CDT.Props.C105_loop_ends"
   ],
   "note": ""
  },
  {
   "property": "C106",
   "status": "proved",
   "theorems": [
    "CDT.Props.C106_repeat",
    "CDT.Props.C106_foliation_kept"
   ],
   "note": ""
  },
  {
   "property": "C107",
   "status": "proved",
   "theorems": [
    "CDT.Props.C107_shared_directory",
    "CDT.Props.C107_finishes",
    "CDT.Props.C107_same_seed"
   ],
   "note": ""
  },
  {
   "property": "C108",
   "status": "proved",
   "theorems": [
    "CDT.Props.C108_any_moment",
    "CDT.Props.C108_any_moment_initialize",
    "CDT.Props.C108_readable",
    "CDT.Props.C108_causal"
   ],
   "note": ""
  },
  {
   "property": "C109",
   "status": "proved",
   "theorems": [
    "CDT.Props.C109_undisturbed",
    "CDT.Props.C109_completed",
    "CDT.Props.C109_completed_initialize",
    "CDT.Props.C109_drawn",
    "CDT.Props.C109_replaced"
   ],
   "note": ""
  },
  {
   "property": "C110",
   "status": "proved",
   "theorems": [
    "CDT.Props.C110_power_loss",
    "CDT.Props.C110_provenance",
    "CDT.Props.C110_power_loss_initialize",
    "CDT.Props.C110_lost_manifest"
   ],
   "note": ""
  },
  {
   "property": "C111",
   "status": "proved",
   "theorems": [
    "CDT.Props.C111_initialize_again",
    "CDT.Props.C111_start_of_run"
   ],
   "note": ""
  },
  {
   "property": "C112",
   "status": "proved",
   "theorems": [
    "CDT.Props.C112_cdt",
    "CDT.Props.C112_initialize"
   ],
   "note": ""
  },
  {
   "property": "C113",
   "status": "proved",
   "theorems": [
    "CDT.Props.C113_cdt",
    "CDT.Props.C113_initialize",
    "CDT.Props.C113_time_cdt",
    "CDT.Props.C113_time_initialize",
    "CDT.Props.C113_summary_true"
   ],
   "note": ""
  },
  {
   "property": "C114",
   "status": "proved",
   "theorems": [
    "CDT.Props.C114_cells",
    "CDT.Props.C114_vertices",
    "CDT.Props.C114_neighbors",
    "CDT.Props.C114_edge",
    "CDT.Props.C114_slices_end"
   ],
   "note": "The text of a point and the order of the vertices in a cell are arbitrary; the contract of CGAL's cell storage (CellStore.Lawful) is assumed. C114_slices_end removes the simplification of C92 about the slice counter."
  },
  {
   "property": "C115",
   "status": "proved",
   "theorems": [
    "CDT.Props.C115_index",
    "CDT.Props.C115_entries",
    "CDT.Props.C115_refines",
    "CDT.Props.C115_counts"
   ],
   "note": "Facets are pairs of a cell and the index of the opposite vertex; C115_refines shows that the set-based model used elsewhere (C36) computes the same. std::multimap is modelled by insertion after equal keys, as the standard requires."
  },
  {
   "property": "C116",
   "status": "proved",
   "theorems": [
    "CDT.Props.C116_try_23_effect",
    "CDT.Props.C116_try_23_iff",
    "CDT.Props.C116_try_32_effect",
    "CDT.Props.C116_try_32_iff",
    "CDT.Props.C116_try_62_effect",
    "CDT.Props.C116_try_62_validated",
    "CDT.Props.C116_try_62_no_draw",
    "CDT.Props.C116_try_62_iff"
   ],
   "note": "The flips follow the CGAL contract of C01: a refused flip changes nothing. Exact conditions are stated with the site predicates of Spec/Sites."
  }
 ]
}