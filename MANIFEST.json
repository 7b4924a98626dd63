{
 "claims": [
  {
   "property": "C01",
   "status": "proved",
   "theorems": [
    "Verif.C01_batched_upper_adjacency",
    "Verif.C01_batched_lower_adjacency",
    "Verif.C01_batched_plain_attributes",
    "Verif.C01_complex_batch_adjacency"
   ],
   "note": ""
  },
  {
   "property": "C02",
   "status": "proved",
   "theorems": [
    "Verif.C02_batched_incidence",
    "Verif.C02_counts_below_are_required",
    "Verif.C02_complex_batch_incidence",
    "Verif.C02_truncated_complex_counterexample"
   ],
   "note": "at complex level under 'top dimension reports no cells above'; C02_truncated_complex_counterexample shows the condition is needed"
  },
  {
   "property": "C03",
   "status": "proved",
   "theorems": [
    "Verif.C03_batch_vector_and_ptr",
    "Verif.C03_row_membership",
    "Verif.C03_batch_vector_with_unknown_counts"
   ],
   "note": ""
  },
  {
   "property": "C04",
   "status": "proved",
   "theorems": [
    "Verif.C04_adjacency_within_one_complex",
    "Verif.C04_incidence_within_one_complex",
    "Verif.C04_shared_within_one_complex"
   ],
   "note": ""
  },
  {
   "property": "C05",
   "status": "proved",
   "theorems": [
    "Verif.C05_recover_upper",
    "Verif.C05_recover_lower",
    "Verif.C05_recover_boundary",
    "Verif.C05_recover_features"
   ],
   "note": ""
  },
  {
   "property": "C06",
   "status": "proved",
   "theorems": [
    "Verif.C06_batch_labels_dimension_size",
    "Verif.C06_get_labels"
   ],
   "note": ""
  },
  {
   "property": "C07",
   "status": "proved",
   "theorems": [
    "Verif.C07_batched_count_with_features",
    "Verif.C07_batched_count_from_incidence",
    "Verif.C07_explicit_count_lost",
    "Verif.C07_count_unknown"
   ],
   "note": "exact conditions proved; C07_explicit_count_lost is the negation of the unconditional claim"
  },
  {
   "property": "C08",
   "status": "proved",
   "theorems": [
    "Verif.C08_construction_coherent",
    "Verif.C08_recorded_counts_overwritten"
   ],
   "note": ""
  },
  {
   "property": "C09",
   "status": "proved",
   "theorems": [
    "Verif.C09_constructor_accepts_iff",
    "Verif.C09_constructor_errors",
    "Verif.C09_cochain_constructor"
   ],
   "note": ""
  },
  {
   "property": "C10",
   "status": "proved",
   "theorems": [
    "Verif.C10_assign_features",
    "Verif.C10_set_xs",
    "Verif.C10_set_xs_failure_keeps_prefix",
    "Verif.C10_clearing_features_may_change_count"
   ],
   "note": ""
  },
  {
   "property": "C11",
   "status": "proved",
   "theorems": [
    "Verif.C11_up_params",
    "Verif.C11_down_params",
    "Verif.C11_boundary_params",
    "Verif.C11_params_defined",
    "Verif.C11_all_params"
   ],
   "note": ""
  },
  {
   "property": "C12",
   "status": "proved",
   "theorems": [
    "Verif.C12_propagate_sums_messages",
    "Verif.C12_propagate_defined"
   ],
   "note": ""
  },
  {
   "property": "C13",
   "status": "proved",
   "theorems": [
    "Verif.C13_column_order_irrelevant",
    "Verif.C13_aggregations_order_free"
   ],
   "note": ""
  },
  {
   "property": "C14",
   "status": "proved",
   "theorems": [
    "Verif.C14_cin_equivariant",
    "Verif.C14_sparse_cin_equivariant",
    "Verif.C14_cinpp_equivariant",
    "Verif.C14_equivariant_up_to_order",
    "Verif.C14_relabel_is_renaming"
   ],
   "note": ""
  },
  {
   "property": "C15",
   "status": "proved",
   "theorems": [
    "Verif.C15_cin_commutes_with_batching",
    "Verif.C15_sparse_cin_commutes_with_batching",
    "Verif.C15_cinpp_commutes_with_batching"
   ],
   "note": ""
  },
  {
   "property": "C16",
   "status": "proved",
   "theorems": [
    "Verif.C16_sparse_cin_predictions_do_not_depend_on_the_batch",
    "Verif.C16_cinpp_predictions_do_not_depend_on_the_batch",
    "Verif.C16_cin_predictions_do_not_depend_on_the_batch",
    "Verif.C16_predictions_meet_the_specification"
   ],
   "note": ""
  },
  {
   "property": "C17",
   "status": "proved",
   "theorems": [
    "Verif.C17_predictions_do_not_depend_on_numbering",
    "Verif.C17_predictions_do_not_depend_on_permutation"
   ],
   "note": ""
  },
  {
   "property": "C18",
   "status": "proved",
   "theorems": [
    "Verif.C18_pooling_is_exact",
    "Verif.C18_trailing_empty_complexes_are_dropped"
   ],
   "note": ""
  },
  {
   "property": "C19",
   "status": "proved",
   "theorems": [
    "Verif.C19_cinpp_ignores_lower_adjacency",
    "Verif.C19_down_message_is_constant"
   ],
   "note": ""
  },
  {
   "property": "C20",
   "status": "proved",
   "theorems": [
    "Verif.C20_no_rings_ignores_2cells",
    "Verif.C20_gin_ignores_2cells"
   ],
   "note": ""
  },
  {
   "property": "C21",
   "status": "proved",
   "theorems": [
    "Verif.C21_initial_features_are_vertex_sums"
   ],
   "note": ""
  },
  {
   "property": "C22",
   "status": "proved",
   "theorems": [
    "Verif.C22_oriented_conv_equivariant",
    "Verif.C22_oriented_conv_spec",
    "Verif.C22_edge_orient_invariant",
    "Verif.C22_fully_invariant"
   ],
   "note": ""
  },
  {
   "property": "C23",
   "status": "proved",
   "theorems": [
    "Verif.C23_ids_are_consecutive_and_unique",
    "Verif.C23_ring_ids_are_consecutive_and_unique"
   ],
   "note": ""
  },
  {
   "property": "C24",
   "status": "proved",
   "theorems": [
    "Verif.C24_incidence_is_exactly_the_faces"
   ],
   "note": ""
  },
  {
   "property": "C25",
   "status": "proved",
   "theorems": [
    "Verif.C25_upper_adjacency_is_sharing_a_coface",
    "Verif.C25_ring_upper_adjacency"
   ],
   "note": ""
  },
  {
   "property": "C26",
   "status": "proved",
   "theorems": [
    "Verif.C26_lower_adjacency_is_sharing_a_face",
    "Verif.C26_switch_only_removes_lower_adjacency",
    "Verif.C26_ring_lower_adjacency"
   ],
   "note": ""
  },
  {
   "property": "C27",
   "status": "proved",
   "theorems": [
    "Verif.C27_cells_are_the_cliques",
    "Verif.C27_edge_list_does_not_matter"
   ],
   "note": ""
  },
  {
   "property": "C28",
   "status": "proved",
   "theorems": [
    "Verif.C28_lifting_succeeds",
    "Verif.C28_empty_graph_fails",
    "Verif.C28_ring_lifting_succeeds",
    "Verif.C28_ring_only_loops_fails"
   ],
   "note": ""
  },
  {
   "property": "C29",
   "status": "proved",
   "theorems": [
    "Verif.C29_features_combine_the_vertices",
    "Verif.C29_missing_vertex_is_an_error",
    "Verif.C29_clique_complex_features",
    "Verif.C29_ring_complex_features"
   ],
   "note": ""
  },
  {
   "property": "C30",
   "status": "proved",
   "theorems": [
    "Verif.C30_labels_are_separated",
    "Verif.C30_labels_of_the_lifted_complex",
    "Verif.C30_ring_complex_labels"
   ],
   "note": ""
  },
  {
   "property": "C31",
   "status": "proved",
   "theorems": [
    "Verif.C31_one_ring_per_vertex_set",
    "Verif.C31_rings_are_the_induced_cycles",
    "Verif.C31_vertex_set_determines_the_cycle"
   ],
   "note": ""
  },
  {
   "property": "C32",
   "status": "proved",
   "theorems": [
    "Verif.C32_boundary_of_a_ring",
    "Verif.C32_incidence_of_rings"
   ],
   "note": ""
  },
  {
   "property": "C33",
   "status": "proved",
   "theorems": [
    "Verif.C33_edge_features_attached_or_rejected",
    "Verif.C33_order_of_columns_does_not_matter"
   ],
   "note": ""
  },
  {
   "property": "C34",
   "status": "proved",
   "theorems": [
    "Verif.C34_isomorphic_graphs_same_prediction"
   ],
   "note": ""
  },
  {
   "property": "C35",
   "status": "proved",
   "theorems": [
    "Verif.C35_clique_conversion",
    "Verif.C35_clique_datasets_convert",
    "Verif.C35_different_widths_are_rejected",
    "Verif.C35_expansion_zero_is_rejected",
    "Verif.C35_ring_conversion",
    "Verif.C35_ring_datasets_convert",
    "Verif.C35_ring_conversion_rejects"
   ],
   "note": ""
  },
  {
   "property": "C36",
   "status": "proved",
   "theorems": [
    "Verif.C36_storing_succeeds",
    "Verif.C36_reading_gives_the_stored_complex",
    "Verif.C36_larger_complexes_are_not_readable",
    "Verif.C36_dimensions_without_cells_are_not_readable",
    "Verif.C36_late_labels_are_not_readable"
   ],
   "note": ""
  },
  {
   "property": "C37",
   "status": "proved",
   "theorems": [
    "Verif.C37_length_is_the_number_of_complexes"
   ],
   "note": ""
  },
  {
   "property": "C38",
   "status": "proved",
   "theorems": [
    "Verif.C38_reads_do_not_depend_on_the_cache",
    "Verif.C38_no_attributes_no_reads"
   ],
   "note": ""
  },
  {
   "property": "C39",
   "status": "proved",
   "theorems": [
    "Verif.C39_copy_always_fails",
    "Verif.C39_copy_of_readable_complexes"
   ],
   "note": ""
  },
  {
   "property": "C40",
   "status": "proved",
   "theorems": [
    "Verif.C40_tu_folders",
    "Verif.C40_tu_degree_tags_collide",
    "Verif.C40_zinc_folders",
    "Verif.C40_zinc_down_adjacency_collides",
    "Verif.C40_ogb_folders",
    "Verif.C40_ogb_down_adjacency_collides",
    "Verif.C40_flow_folders",
    "Verif.C40_ocean_folders",
    "Verif.C40_csl_folders",
    "Verif.C40_peptides_folders",
    "Verif.C40_peptides_down_adjacency_collides",
    "Verif.C40_flow_sizes_collide"
   ],
   "note": ""
  },
  {
   "property": "C41",
   "status": "proved",
   "theorems": [
    "Verif.C41_boundary_of_a_boundary_is_zero",
    "Verif.C41_entries",
    "Verif.C41_checks",
    "Verif.C41_extraction_succeeds",
    "Verif.C41_ocean_boundary_of_a_boundary_is_zero",
    "Verif.C41_ocean_matrices_succeed"
   ],
   "note": ""
  },
  {
   "property": "C42",
   "status": "proved",
   "theorems": [
    "Verif.C42_arrays",
    "Verif.C42_accepted_walks",
    "Verif.C42_flow_counts_passages",
    "Verif.C42_divergence",
    "Verif.C42_generated_trajectories"
   ],
   "note": ""
  },
  {
   "property": "C43",
   "status": "proved",
   "theorems": [
    "Verif.C43_stripping",
    "Verif.C43_nothing_to_strip",
    "Verif.C43_same_flow"
   ],
   "note": ""
  },
  {
   "property": "C44",
   "status": "proved",
   "theorems": [
    "Verif.C44_trajectories_are_simple_paths",
    "Verif.C44_greedy_steps",
    "Verif.C44_attempts_end"
   ],
   "note": ""
  },
  {
   "property": "C45",
   "status": "proved",
   "theorems": [
    "Verif.C45_keeps_triangulations",
    "Verif.C45_create_hole",
    "Verif.C45_rejected",
    "Verif.C45_two_rectangles"
   ],
   "note": ""
  },
  {
   "property": "C46",
   "status": "proved",
   "theorems": [
    "Verif.C46_adjacency",
    "Verif.C46_rejected",
    "Verif.C46_change_of_orientation",
    "Verif.C46_orientation_matrices",
    "Verif.C46_flow_cochains",
    "Verif.C46_predictions_do_not_depend_on_the_orientation"
   ],
   "note": ""
  },
  {
   "property": "C47",
   "status": "proved",
   "theorems": [
    "Verif.C47_mask",
    "Verif.C47_split",
    "Verif.C47_split_succeeds"
   ],
   "note": ""
  },
  {
   "property": "C48",
   "status": "proved",
   "theorems": [
    "Verif.C48_ring_transfer_graph",
    "Verif.C48_label_is_far_away"
   ],
   "note": ""
  },
  {
   "property": "C49",
   "status": "proved",
   "theorems": [
    "Verif.C49_generation_succeeds_iff",
    "Verif.C49_labels_are_balanced",
    "Verif.C49_failures",
    "Verif.C49_indices_cover_the_dataset"
   ],
   "note": ""
  },
  {
   "property": "C50",
   "status": "proved",
   "theorems": [
    "Verif.C50_valid_iff_permutation",
    "Verif.C50_one_node",
    "Verif.C50_square_matrices",
    "Verif.C50_generated"
   ],
   "note": ""
  },
  {
   "property": "C51",
   "status": "proved",
   "theorems": [
    "Verif.C51_permuted_graph",
    "Verif.C51_edge_count",
    "Verif.C51_refused",
    "Verif.C51_isomorphic",
    "Verif.C51_same_prediction"
   ],
   "note": ""
  },
  {
   "property": "C52",
   "status": "proved",
   "theorems": [
    "Verif.C52_failure_rate",
    "Verif.C52_zero_iff_separated",
    "Verif.C52_is_a_rate",
    "Verif.C52_order_does_not_matter",
    "Verif.C52_equal_predictions_fail",
    "Verif.C52_too_few"
   ],
   "note": ""
  },
  {
   "property": "C53",
   "status": "proved",
   "theorems": [
    "Verif.C53_curves",
    "Verif.C53_best_epoch",
    "Verif.C53_first_nan_is_best",
    "Verif.C53_reported_scores",
    "Verif.C53_training_score_of_the_best_epoch",
    "Verif.C53_final_scores",
    "Verif.C53_no_epochs",
    "Verif.C53_training_score_may_be_stale"
   ],
   "note": ""
  },
  {
   "property": "C54",
   "status": "proved",
   "theorems": [
    "Verif.C54_counts_of_a_graph",
    "Verif.C54_counts_add_up",
    "Verif.C54_counts_of_a_split",
    "Verif.C54_empty_split",
    "Verif.C54_counts_of_the_dataset",
    "Verif.C54_isomorphic_graphs"
   ],
   "note": ""
  },
  {
   "property": "C55",
   "status": "proved",
   "theorems": [
    "Verif.C55_splits_partition_the_dataset",
    "Verif.C55_zinc_graphs",
    "Verif.C55_get_split"
   ],
   "note": ""
  },
  {
   "property": "C56",
   "status": "proved",
   "theorems": [
    "Verif.C56_graph_of_a_complex",
    "Verif.C56_rejected",
    "Verif.C56_graph_of_the_clique_complex",
    "Verif.C56_graph_of_the_ring_complex"
   ],
   "note": ""
  },
  {
   "property": "C57",
   "status": "proved",
   "theorems": [
    "Verif.C57_steps_of_an_epoch",
    "Verif.C57_length_of_the_curve",
    "Verif.C57_other_tasks",
    "Verif.C57_skipped_batches"
   ],
   "note": ""
  },
  {
   "property": "C58",
   "status": "proved",
   "theorems": [
    "Verif.C58_readable_files",
    "Verif.C58_neighbour_out_of_range",
    "Verif.C58_graph_without_edges",
    "Verif.C58_labels",
    "Verif.C58_edges",
    "Verif.C58_tags",
    "Verif.C58_tag_features",
    "Verif.C58_degree_features",
    "Verif.C58_graphs",
    "Verif.C58_isolated_last_node_shifts_degrees"
   ],
   "note": ""
  },
  {
   "property": "C59",
   "status": "proved",
   "theorems": [
    "Verif.C59_answers_follow_the_data",
    "Verif.C59_answer_is_unique",
    "Verif.C59_bad_questions_fail",
    "Verif.C59_known_values_are_kept"
   ],
   "note": ""
  },
  {
   "property": "C60",
   "status": "proved",
   "theorems": [
    "Verif.C60_classes",
    "Verif.C60_sizes"
   ],
   "note": ""
  },
  {
   "property": "C61",
   "status": "proved",
   "theorems": [
    "Verif.C61_classes",
    "Verif.C61_no_class",
    "Verif.C61_reversed",
    "Verif.C61_paths"
   ],
   "note": ""
  },
  {
   "property": "C62",
   "status": "proved",
   "theorems": [
    "Verif.C62_inference_does_not_depend_on_batches",
    "Verif.C62_scores_do_not_depend_on_batches",
    "Verif.C62_accuracy_does_not_depend_on_order",
    "Verif.C62_accuracy_is_the_share",
    "Verif.C62_error_is_the_mean",
    "Verif.C62_error_does_not_depend_on_order",
    "Verif.C62_accuracy_of_a_network",
    "Verif.C62_mean_loss_depends_on_batches"
   ],
   "note": ""
  },
  {
   "property": "C63",
   "status": "proved",
   "theorems": [
    "Verif.C63_embed_sparse_cin_predictions_do_not_depend_on_the_batch",
    "Verif.C63_embed_cinpp_predictions_do_not_depend_on_the_batch",
    "Verif.C63_no_rings_predictions_do_not_depend_on_the_batch",
    "Verif.C63_predictions_meet_the_specification",
    "Verif.C63_predictions_do_not_depend_on_numbering",
    "Verif.C63_embed_gin_predictions"
   ],
   "note": ""
  },
  {
   "property": "C64",
   "status": "proved",
   "theorems": [
    "Verif.C64_isomorphic_graphs_renumbered_complexes",
    "Verif.C64_isomorphic_graphs_same_embedding_prediction",
    "Verif.C64_isomorphic_graphs_same_prediction"
   ],
   "note": ""
  },
  {
   "property": "C65",
   "status": "proved",
   "theorems": [
    "Verif.C65_same_colours_same_prediction",
    "Verif.C65_cin_same_colours_same_prediction",
    "Verif.C65_renumbered_same_colours"
   ],
   "note": ""
  },
  {
   "property": "C66",
   "status": "proved",
   "theorems": [
    "Verif.C66_some_network_sees_the_colours"
   ],
   "note": ""
  },
  {
   "property": "C67",
   "status": "proved",
   "theorems": [
    "Verif.C67_predictions_do_not_depend_on_the_batch",
    "Verif.C67_same_colours_same_prediction",
    "Verif.C67_isomorphic_graphs_same_prediction"
   ],
   "note": ""
  },
  {
   "property": "C68",
   "status": "proved",
   "theorems": [
    "Verif.C68_cin_simulates_gin",
    "Verif.C68_cin_counts_rings",
    "Verif.C68_cin_sees_more_than_gin"
   ],
   "note": ""
  },
  {
   "property": "C69",
   "status": "proved",
   "theorems": [
    "Verif.C69_ring_sparse_cin_predictions_do_not_depend_on_the_batch",
    "Verif.C69_ring_gin_predictions_do_not_depend_on_the_batch"
   ],
   "note": ""
  },
  {
   "property": "C70",
   "status": "proved",
   "theorems": [
    "Verif.C70_ring_transfer_complexes",
    "Verif.C70_ring_lookup_complexes"
   ],
   "note": ""
  },
  {
   "property": "C71",
   "status": "proved",
   "theorems": [
    "Verif.C71_ring_lookup_graph",
    "Verif.C71_label_is_the_value_at_the_key",
    "Verif.C71_no_keys",
    "Verif.C71_lookup_dataset"
   ],
   "note": ""
  },
  {
   "property": "C72",
   "status": "proved",
   "theorems": [
    "Verif.C72_two_layers_do_not_see_the_label",
    "Verif.C72_without_coboundaries_half_the_ring_is_needed",
    "Verif.C72_gin_needs_half_the_ring",
    "Verif.C72_three_layers_read_the_label",
    "Verif.C72_gin_with_half_the_ring_reads_the_label",
    "Verif.C72_processed_complexes_are_stored"
   ],
   "note": ""
  },
  {
   "property": "C73",
   "status": "proved",
   "theorems": [
    "Verif.C73_summary",
    "Verif.C73_common_epoch_is_conservative",
    "Verif.C73_different_lengths",
    "Verif.C73_cross_validation",
    "Verif.C73_early_stopping_loses_the_summary",
    "Verif.C73_summary_ignores_minimize"
   ],
   "note": ""
  },
  {
   "property": "C74",
   "status": "proved",
   "theorems": [
    "Verif.C74_runs",
    "Verif.C74_seeds",
    "Verif.C74_lines",
    "Verif.C74_statistics",
    "Verif.C74_one_run",
    "Verif.C74_nan",
    "Verif.C74_ring_sizes"
   ],
   "note": ""
  },
  {
   "property": "C75",
   "status": "proved",
   "theorems": [
    "Verif.C75_division",
    "Verif.C75_split_request",
    "Verif.C75_split_predictions",
    "Verif.C75_split_scores",
    "Verif.C75_experiment_loaders",
    "Verif.C75_tuning_splits_are_ignored"
   ],
   "note": ""
  },
  {
   "property": "C76",
   "status": "proved",
   "theorems": [
    "Verif.C76_processing",
    "Verif.C76_dataset",
    "Verif.C76_predictions",
    "Verif.C76_isomorphic_datasets"
   ],
   "note": ""
  },
  {
   "property": "C77",
   "status": "proved",
   "theorems": [
    "Verif.C77_ten_folds",
    "Verif.C77_labels_needed"
   ],
   "note": ""
  },
  {
   "property": "C78",
   "status": "proved",
   "theorems": [
    "Verif.C78_reading",
    "Verif.C78_sources",
    "Verif.C78_permuted_graphs",
    "Verif.C78_constructions_succeed",
    "Verif.C78_dimension",
    "Verif.C78_processed_again",
    "Verif.C78_predictions",
    "Verif.C78_self_isomorphism",
    "Verif.C78_isomorphic_graphs_fail",
    "Verif.C78_refused"
   ],
   "note": ""
  },
  {
   "property": "C79",
   "status": "proved",
   "theorems": [
    "Verif.C79_run",
    "Verif.C79_runs_fit_the_datasets",
    "Verif.C79_summary",
    "Verif.C79_printed_error_too_small",
    "Verif.C79_experiment",
    "Verif.C79_bounds",
    "Verif.C79_refused"
   ],
   "note": ""
  },
  {
   "property": "C80",
   "status": "proved",
   "theorems": [
    "Verif.C80_zinc",
    "Verif.C80_zinc_without_edge_features",
    "Verif.C80_ogb",
    "Verif.C80_csl_processing",
    "Verif.C80_csl_folds",
    "Verif.C80_peptides",
    "Verif.C80_peptides_checks"
   ],
   "note": ""
  },
  {
   "property": "C81",
   "status": "proved",
   "theorems": [
    "Verif.C81_predictions",
    "Verif.C81_scores",
    "Verif.C81_isomorphic_molecules",
    "Verif.C81_zinc_predictions"
   ],
   "note": ""
  },
  {
   "property": "C82",
   "status": "proved",
   "theorems": [
    "Verif.C82_same_exceptions",
    "Verif.C82_missing_levels",
    "Verif.C82_features_needed",
    "Verif.C82_parameters",
    "Verif.C82_construction",
    "Verif.C82_sparse_cin",
    "Verif.C82_cinpp",
    "Verif.C82_final_readout",
    "Verif.C82_coboundaries_beyond_max_dim",
    "Verif.C82_no_layers",
    "Verif.C82_single_columns_are_broadcast",
    "Verif.C82_embed_sparse_cin",
    "Verif.C82_embed_cinpp",
    "Verif.C82_embed_several_columns",
    "Verif.C82_ogb_embed_sparse_cin",
    "Verif.C82_ogb_embed_cinpp",
    "Verif.C82_ogb_too_many_columns",
    "Verif.C82_no_rings",
    "Verif.C82_cin0",
    "Verif.C82_cin0_beyond_max_dim",
    "Verif.C82_edge_cin0_without_top",
    "Verif.C82_edge_cin0_update_top",
    "Verif.C82_edge_cin0_fixed_top",
    "Verif.C82_edge_cin0_no_top",
    "Verif.C82_dummy",
    "Verif.C82_message_passing_agnostic",
    "Verif.C82_edge_networks",
    "Verif.C82_gin",
    "Verif.C82_ring_gin",
    "Verif.C82_ring_sparse_cin",
    "Verif.C82_ring_sparse_cin_other_vertices",
    "Verif.C82_embed_gin"
   ],
   "note": ""
  },
  {
   "property": "C83",
   "status": "proved",
   "theorems": [
    "Verif.C83_order_of_arguments",
    "Verif.C83_fused_functions",
    "Verif.C83_collected_arguments",
    "Verif.C83_collected_sizes",
    "Verif.C83_library_layers",
    "Verif.C83_library_exceptions",
    "Verif.C83_messages_reach_their_cells",
    "Verif.C83_sparse_adjacencies",
    "Verif.C83_mixed_adjacencies_rejected",
    "Verif.C83_shapes_must_agree",
    "Verif.C83_reverse_flow_rejects_sparse",
    "Verif.C83_boundary_sizes_rejected",
    "Verif.C83_names_without_prefix",
    "Verif.C83_messages_without_features"
   ],
   "note": ""
  },
  {
   "property": "C84",
   "status": "proved",
   "theorems": [
    "Verif.C84_batches",
    "Verif.C84_inference_does_not_depend_on_batches",
    "Verif.C84_orientations",
    "Verif.C84_flow_items",
    "Verif.C84_flow_succeeds",
    "Verif.C84_loaders",
    "Verif.C84_no_batch_size",
    "Verif.C84_flow_predictions",
    "Verif.C84_classes_can_share_a_flow",
    "Verif.C84_ocean_items",
    "Verif.C84_ocean_succeeds",
    "Verif.C84_ocean_predictions"
   ],
   "note": ""
  },
  {
   "property": "C85",
   "status": "proved",
   "theorems": [
    "Verif.C85_neighbourhoods",
    "Verif.C85_a_vertex_hears_its_neighbours",
    "Verif.C85_clique_predictions",
    "Verif.C85_ring_predictions",
    "Verif.C85_embedding_predictions"
   ],
   "note": ""
  },
  {
   "property": "C86",
   "status": "proved",
   "theorems": [
    "Verif.C86_csl",
    "Verif.C86_ring_cells",
    "Verif.C86_ring_graphs",
    "Verif.C86_ring_transfer_graphs_never_start",
    "Verif.C86_zinc",
    "Verif.C86_ogb",
    "Verif.C86_sr",
    "Verif.C86_flow",
    "Verif.C86_tu",
    "Verif.C86_tasks",
    "Verif.C86_objective",
    "Verif.C86_lower_adjacencies",
    "Verif.C86_lower_adjacencies_not_passed",
    "Verif.C86_predictions",
    "Verif.C86_same_classes",
    "Verif.C86_unknown_datasets",
    "Verif.C86_never_start",
    "Verif.C86_peptides_raise"
   ],
   "note": ""
  },
  {
   "property": "C87",
   "status": "proved",
   "theorems": [
    "Verif.C87_named_parameters",
    "Verif.C87_sparse_cin_parameters",
    "Verif.C87_cinpp_parameters",
    "Verif.C87_embed_sparse_cin_parameters",
    "Verif.C87_ogb_embed_sparse_cin_parameters",
    "Verif.C87_embed_cinpp_parameters",
    "Verif.C87_ogb_embed_cinpp_parameters",
    "Verif.C87_no_rings_parameters",
    "Verif.C87_cin0_parameters",
    "Verif.C87_cin0_max_dim",
    "Verif.C87_edge_cin0_parameters",
    "Verif.C87_ring_sparse_cin_parameters",
    "Verif.C87_ring_gin_parameters",
    "Verif.C87_gin_parameters",
    "Verif.C87_embed_gin_parameters",
    "Verif.C87_edge_net_parameters",
    "Verif.C87_dummy_parameters",
    "Verif.C87_agnostic_parameters",
    "Verif.C87_gin_reset",
    "Verif.C87_ring_gin_reset",
    "Verif.C87_embed_gin_reset",
    "Verif.C87_edge_net_reset",
    "Verif.C87_dummy_reset",
    "Verif.C87_agnostic_reset",
    "Verif.C87_sparse_cin_reset",
    "Verif.C87_cinpp_reset",
    "Verif.C87_embed_sparse_cin_reset",
    "Verif.C87_embed_cinpp_reset",
    "Verif.C87_cin0_reset",
    "Verif.C87_edge_cin0_reset",
    "Verif.C87_ring_sparse_cin_reset",
    "Verif.C87_sparse_level_reset",
    "Verif.C87_pp_level_reset",
    "Verif.C87_encoder_reset"
   ],
   "note": ""
  },
  {
   "property": "C88",
   "status": "proved",
   "theorems": [
    "Verif.C88_lower_messages_are_unused",
    "Verif.C88_unread_dense_layers_are_unused",
    "Verif.C88_clique_predictions",
    "Verif.C88_ring_predictions",
    "Verif.C88_embedding_predictions"
   ],
   "note": ""
  },
  {
   "property": "C89",
   "status": "proved",
   "theorems": [
    "Verif.C89_first_complete_run_wins",
    "Verif.C89_own_data",
    "Verif.C89_tu",
    "Verif.C89_zinc",
    "Verif.C89_ogb",
    "Verif.C89_csl",
    "Verif.C89_ocean",
    "Verif.C89_dummy_molecules",
    "Verif.C89_tu_degree_tags_ignored",
    "Verif.C89_zinc_lower_adjacencies_ignored",
    "Verif.C89_ogb_lower_adjacencies_ignored",
    "Verif.C89_flow_sizes",
    "Verif.C89_ring_transfer",
    "Verif.C89_sr"
   ],
   "note": ""
  },
  {
   "property": "C90",
   "status": "proved",
   "theorems": [
    "Verif.C90_clique_simulates_gin",
    "Verif.C90_counts_cliques",
    "Verif.C90_without_triangles",
    "Verif.C90_without_rings",
    "Verif.C90_networks_without_rings",
    "Verif.C90_cliques_see_more_than_gin",
    "Verif.C90_rings_see_more_than_cliques"
   ],
   "note": ""
  },
  {
   "property": "C91",
   "status": "proved",
   "theorems": [
    "Verif.C91_regular_graphs_alike",
    "Verif.C91_strongly_regular_cliques",
    "Verif.C91_rings_of_three",
    "Verif.C91_dimension_three_sees_more",
    "Verif.C91_rings_of_four"
   ],
   "note": ""
  },
  {
   "property": "C92",
   "status": "proved",
   "theorems": [
    "Verif.C92_agnostic_predictions",
    "Verif.C92_agnostic_ignores_incidences",
    "Verif.C92_sparse_can_be_agnostic",
    "Verif.C92_clique_predictions",
    "Verif.C92_ring_predictions",
    "Verif.C92_agnostic_counts_cliques",
    "Verif.C92_agnostic_counts_rings",
    "Verif.C92_dummy_refuses",
    "Verif.C92_agnostic_sees_less"
   ],
   "note": ""
  },
  {
   "property": "C93",
   "status": "proved",
   "theorems": [
    "Verif.C93_edge_predictions",
    "Verif.C93_edge_numbering",
    "Verif.C93_edge_blind_spots",
    "Verif.C93_clique_predictions",
    "Verif.C93_ring_predictions",
    "Verif.C93_edge_sees_rings"
   ],
   "note": ""
  },
  {
   "property": "C94",
   "status": "proved",
   "theorems": [
    "Verif.C94_clique_switch",
    "Verif.C94_ring_switch",
    "Verif.C94_datasets_switch",
    "Verif.C94_cell_networks_ignore_the_switch",
    "Verif.C94_embedding_networks_ignore_the_switch",
    "Verif.C94_cluster_splits_differ",
    "Verif.C94_cin_sees_the_switch"
   ],
   "note": ""
  },
  {
   "property": "C95",
   "status": "proved",
   "theorems": [
    "Verif.C95_sparse_cin_in_training_mode",
    "Verif.C95_cinpp_in_training_mode",
    "Verif.C95_trained_batches_run",
    "Verif.C95_training_does_not_depend_on_numbering",
    "Verif.C95_without_batch_normalisation",
    "Verif.C95_embedding_networks_in_training_mode",
    "Verif.C95_training_depends_on_the_batch"
   ],
   "note": ""
  },
  {
   "property": "C96",
   "status": "proved",
   "theorems": [
    "Verif.C96_loss_of_a_batch",
    "Verif.C96_wrong_number_of_outputs",
    "Verif.C96_missing_labels_do_not_matter",
    "Verif.C96_order_does_not_matter",
    "Verif.C96_zero_loss",
    "Verif.C96_classification",
    "Verif.C96_mean_loss_of_equal_batches",
    "Verif.C96_mean_loss_is_not_the_error",
    "Verif.C96_batch_without_labels",
    "Verif.C96_mae"
   ],
   "note": ""
  },
  {
   "property": "C97",
   "status": "proved",
   "theorems": [
    "Verif.C97_standardised_column",
    "Verif.C97_standardised_targets",
    "Verif.C97_constant_column",
    "Verif.C97_units_do_not_matter",
    "Verif.C97_idempotent",
    "Verif.C97_labels",
    "Verif.C97_labels_depend_on_other_splits"
   ],
   "note": ""
  },
  {
   "property": "C98",
   "status": "proved",
   "theorems": [
    "Verif.C98_running_statistics",
    "Verif.C98_numbering_does_not_matter",
    "Verif.C98_order_inside_batches",
    "Verif.C98_isomorphic_datasets"
   ],
   "note": ""
  },
  {
   "property": "C99",
   "status": "proved",
   "theorems": [
    "Verif.C99_round_trip",
    "Verif.C99_other_families",
    "Verif.C99_names_in_the_file_are_not_read",
    "Verif.C99_names",
    "Verif.C99_plot_shows_the_experiment"
   ],
   "note": ""
  },
  {
   "property": "C100",
   "status": "proved",
   "theorems": [
    "Verif.C100_cliques_fit",
    "Verif.C100_no_clique_is_cut_off",
    "Verif.C100_names",
    "Verif.C100_higher_dimensions_change_nothing",
    "Verif.C100_dimensions_are_needed"
   ],
   "note": ""
  },
  {
   "property": "C101",
   "status": "proved",
   "theorems": [
    "Verif.C101_combinations",
    "Verif.C101_every_combination_once",
    "Verif.C101_arguments",
    "Verif.C101_only_understood_values",
    "Verif.C101_nothing_begun",
    "Verif.C101_all_begun",
    "Verif.C101_folds",
    "Verif.C101_results_are_kept_apart",
    "Verif.C101_prepared",
    "Verif.C101_preparation_fails",
    "Verif.C101_preparation_needs_ring_sizes"
   ],
   "note": ""
  },
  {
   "property": "C102",
   "status": "proved",
   "theorems": [
    "Verif.C102_ring_check_succeeds",
    "Verif.C102_ring_check_is_sound",
    "Verif.C102_split_check_succeeds",
    "Verif.C102_split_check_without_bonds",
    "Verif.C102_split_check_is_sound",
    "Verif.C102_compare_accepts_itself",
    "Verif.C102_compare_is_sound",
    "Verif.C102_compare_then_same_inputs",
    "Verif.C102_stored_clique_complexes_pass",
    "Verif.C102_stored_ring_complexes_pass",
    "Verif.C102_ring_check_overlooks_edges",
    "Verif.C102_compare_overlooks_labels"
   ],
   "note": ""
  },
  {
   "property": "C103",
   "status": "proved",
   "theorems": [
    "Verif.C103_cliques_without_lower_neighbours",
    "Verif.C103_rings_without_lower_neighbours",
    "Verif.C103_cin_on_cliques",
    "Verif.C103_cin_on_rings",
    "Verif.C103_one_sparse_network_for_all_cin",
    "Verif.C103_one_layer_is_not_enough"
   ],
   "note": ""
  },
  {
   "property": "C104",
   "status": "proved",
   "theorems": [
    "Verif.C104_embeddings",
    "Verif.C104_script",
    "Verif.C104_regular_graphs_have_rings",
    "Verif.C104_families",
    "Verif.C104_test"
   ],
   "note": ""
  },
  {
   "property": "C105",
   "status": "proved",
   "theorems": [
    "Verif.C105_handmade_complexes",
    "Verif.C105_dummy_dataset",
    "Verif.C105_dummy_molecules",
    "Verif.C105_batching_test",
    "Verif.C105_batching_test_on_the_handmade_complexes",
    "Verif.C105_molecular_batching_test",
    "Verif.C105_permutation_test",
    "Verif.C105_permutation_test_on_the_molecular_complexes"
   ],
   "note": ""
  },
  {
   "property": "C106",
   "status": "proved",
   "theorems": [
    "Verif.C106_the_prediction_stays",
    "Verif.C106_intermediate_results",
    "Verif.C106_partial_test",
    "Verif.C106_what_the_tests_compare",
    "Verif.C106_partial_test_on_the_handmade_complexes",
    "Verif.C106_embedding_tests",
    "Verif.C106_embedding_tests_on_the_handmade_complexes"
   ],
   "note": ""
  },
  {
   "property": "C107",
   "status": "proved",
   "theorems": [
    "Verif.C107_ocean_faces_are_recovered",
    "Verif.C107_the_matrix_determines_the_faces",
    "Verif.C107_triangles_are_recovered"
   ],
   "note": ""
  },
  {
   "property": "C108",
   "status": "proved",
   "theorems": [
    "Verif.C108_degree_test",
    "Verif.C108_folds",
    "Verif.C108_given_split",
    "Verif.C108_missing_row_not_noticed"
   ],
   "note": ""
  },
  {
   "property": "C109",
   "status": "proved",
   "theorems": [
    "Verif.C109_cin_in_training_mode",
    "Verif.C109_trained_batches_run",
    "Verif.C109_lifted_graphs",
    "Verif.C109_training_does_not_depend_on_numbering",
    "Verif.C109_without_batch_normalisation",
    "Verif.C109_depends_on_the_batch_and_on_both_directions"
   ],
   "note": ""
  },
  {
   "property": "C110",
   "status": "proved",
   "theorems": [
    "Verif.C110_gin_in_training_mode",
    "Verif.C110_ring_gin_in_training_mode",
    "Verif.C110_trained_batches_run",
    "Verif.C110_same_colours_same_prediction",
    "Verif.C110_isomorphic_graphs_same_prediction",
    "Verif.C110_same_colours_in_one_batch",
    "Verif.C110_without_batch_normalisation",
    "Verif.C110_depends_on_the_batch"
   ],
   "note": ""
  },
  {
   "property": "C111",
   "status": "proved",
   "theorems": [
    "Verif.C111_average_precision_of_a_column",
    "Verif.C111_roc_auc_of_a_column",
    "Verif.C111_between_zero_and_one",
    "Verif.C111_perfect_scores",
    "Verif.C111_constant_scores",
    "Verif.C111_reversed_scores",
    "Verif.C111_only_the_order_matters",
    "Verif.C111_evaluator_ap",
    "Verif.C111_evaluator_ogb",
    "Verif.C111_wrong_shapes",
    "Verif.C111_order_of_rows",
    "Verif.C111_increasing_functions",
    "Verif.C111_columns_without_positives"
   ],
   "note": ""
  },
  {
   "property": "C112",
   "status": "proved",
   "theorems": [
    "Verif.C112_evaluation_mode",
    "Verif.C112_sparse_cin_is_unbiased",
    "Verif.C112_other_models_are_unbiased",
    "Verif.C112_training_mode",
    "Verif.C112_rates",
    "Verif.C112_own_random_numbers",
    "Verif.C112_every_layer_has_its_mask",
    "Verif.C112_numbering",
    "Verif.C112_same_colours",
    "Verif.C112_in_front_of_lin1_is_biased"
   ],
   "note": ""
  },
  {
   "property": "C113",
   "status": "proved",
   "theorems": [
    "Verif.C113_convolution_test",
    "Verif.C113_what_the_tests_compare",
    "Verif.C113_partial_is_forward",
    "Verif.C113_equivariance_tests",
    "Verif.C113_invariance_test",
    "Verif.C113_relu_test_fails",
    "Verif.C113_batching_test"
   ],
   "note": ""
  },
  {
   "property": "C114",
   "status": "proved",
   "theorems": [
    "Verif.C114_evaluation_mode",
    "Verif.C114_edge_flow_networks_are_unbiased",
    "Verif.C114_batches_and_orientations",
    "Verif.C114_rates",
    "Verif.C114_own_random_numbers",
    "Verif.C114_unknown_position",
    "Verif.C114_embed_gin_is_unbiased"
   ],
   "note": ""
  },
  {
   "property": "C115",
   "status": "proved",
   "theorems": [
    "Verif.C115_features_test",
    "Verif.C115_up_attr_test",
    "Verif.C115_down_attr_test",
    "Verif.C115_boundary_index_test",
    "Verif.C115_what_the_tests_compare",
    "Verif.C115_hand_made_complexes",
    "Verif.C115_clique_complexes",
    "Verif.C115_empty_upper_index"
   ],
   "note": ""
  },
  {
   "property": "C116",
   "status": "proved",
   "theorems": [
    "Verif.C116_messages_along_boundaries",
    "Verif.C116_shared_cells_count",
    "Verif.C116_up_and_boundary_messages",
    "Verif.C116_dummy_layer",
    "Verif.C116_isolated_cells",
    "Verif.C116_vertices_as_in_graphs",
    "Verif.C116_which_complexes"
   ],
   "note": ""
  },
  {
   "property": "C117",
   "status": "proved",
   "theorems": [
    "Verif.C117_hole_test",
    "Verif.C117_adjacency_checks",
    "Verif.C117_what_the_checks_detect",
    "Verif.C117_flow_test",
    "Verif.C117_ocean_test"
   ],
   "note": ""
  },
  {
   "property": "C118",
   "status": "proved",
   "theorems": [
    "Verif.C118_shuffling_test",
    "Verif.C118_idx_splitting_test",
    "Verif.C118_ring_generation_test",
    "Verif.C118_what_the_checks_detect",
    "Verif.C118_ring_conversion_test"
   ],
   "note": ""
  },
  {
   "property": "C119",
   "status": "proved",
   "theorems": [
    "Verif.C119_scores_of_coinciding_splits",
    "Verif.C119_assertions_of_the_test",
    "Verif.C119_run_exp_on_dummym"
   ],
   "note": ""
  },
  {
   "property": "C120",
   "status": "proved",
   "theorems": [
    "Verif.C120_structural_recovers",
    "Verif.C120_functional_recovers",
    "Verif.C120_functional_stays_broken",
    "Verif.C120_wrong_download_stays",
    "Verif.C120_first_wrong_download",
    "Verif.C120_when_it_asks",
    "Verif.C120_version_is_not_noticed"
   ],
   "note": ""
  },
  {
   "property": "C121",
   "status": "proved",
   "theorems": [
    "Verif.C121_any_schedule",
    "Verif.C121_the_call_ends",
    "Verif.C121_one_job",
    "Verif.C121_bar",
    "Verif.C121_conversion",
    "Verif.C121_what_the_checks_detect",
    "Verif.C121_distinct_graphs",
    "Verif.C121_swap_is_not_detected",
    "Verif.C121_test_passes"
   ],
   "note": ""
  },
  {
   "property": "C122",
   "status": "proved",
   "theorems": [
    "Verif.C122_what_a_call_leaves",
    "Verif.C122_what_the_others_leave",
    "Verif.C122_ring_intermediate_results",
    "Verif.C122_repeated_calls",
    "Verif.C122_repeated_calls_on_batches"
   ],
   "note": ""
  },
  {
   "property": "C123",
   "status": "proved",
   "theorems": [
    "Verif.C123_larger_sizes_change_nothing",
    "Verif.C123_longer_rings_are_added",
    "Verif.C123_graphs_of_complexes",
    "Verif.C123_conversions_complete",
    "Verif.C123_conversion_tests_pass"
   ],
   "note": ""
  },
  {
   "property": "C124",
   "status": "proved",
   "theorems": [
    "Verif.C124_reduction",
    "Verif.C124_reduction_on_complexes",
    "Verif.C124_what_the_test_detects",
    "Verif.C124_no_features",
    "Verif.C124_embed_test",
    "Verif.C124_embed_test_passes",
    "Verif.C124_house_test"
   ],
   "note": ""
  },
  {
   "property": "C125",
   "status": "proved",
   "theorems": [
    "Verif.C125_regions",
    "Verif.C125_symmetric",
    "Verif.C125_three_vertices",
    "Verif.C125_no_zero_flows"
   ],
   "note": ""
  },
  {
   "property": "C126",
   "status": "proved",
   "theorems": [
    "Verif.C126_layer_on_samples",
    "Verif.C126_what_the_test_detects",
    "Verif.C126_orient_test",
    "Verif.C126_networks_work",
    "Verif.C126_orientations"
   ],
   "note": ""
  },
  {
   "property": "C127",
   "status": "proved",
   "theorems": [
    "Verif.C127_recorded",
    "Verif.C127_rows",
    "Verif.C127_without_record",
    "Verif.C127_never_right",
    "Verif.C127_complexes",
    "Verif.C127_no_complexes"
   ],
   "note": ""
  }
 ]
}