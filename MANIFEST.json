{
 "claims": [
  {
   "property": "C01",
   "status": "proved",
   "theorems": [
    "Trumania.C01_merge_2_dicts_union",
    "Trumania.C01_merge_2_dicts_conflict",
    "Trumania.C01_merge_2_dicts_none",
    "Trumania.C01_merge_2_dicts_order_independent"
   ],
   "note": ""
  },
  {
   "property": "C02",
   "status": "proved",
   "theorems": [
    "Trumania.C02_merge_dicts_fold"
   ],
   "note": ""
  },
  {
   "property": "C03",
   "status": "proved",
   "theorems": [
    "Trumania.C03_cap_to_total",
    "Trumania.C03_cap_to_total_noop"
   ],
   "note": ""
  },
  {
   "property": "C04",
   "status": "proved",
   "theorems": [
    "Trumania.C04_sequential_ids_consecutive",
    "Trumania.C04_sequential_ids_unique"
   ],
   "note": ""
  },
  {
   "property": "C05",
   "status": "proved",
   "theorems": [
    "Trumania.C05_reload_continues",
    "Trumania.C05_no_collision_across_reload"
   ],
   "note": ""
  },
  {
   "property": "C06",
   "status": "proved",
   "theorems": [
    "Trumania.C06_ids_sorted",
    "Trumania.C06_order_breaks_past_max_length"
   ],
   "note": ""
  },
  {
   "property": "C07",
   "status": "proved",
   "theorems": [
    "Trumania.C07_msisdn_unique",
    "Trumania.C07_msisdn_capacity"
   ],
   "note": ""
  },
  {
   "property": "C08",
   "status": "proved",
   "theorems": [
    "Trumania.C08_latest_date_before",
    "Trumania.C08_nonpositive_step_hangs"
   ],
   "note": ""
  },
  {
   "property": "C09",
   "status": "proved",
   "theorems": [
    "Trumania.C09_n_iterations",
    "Trumania.C09_zero_step"
   ],
   "note": ""
  },
  {
   "property": "C10",
   "status": "proved",
   "theorems": [
    "Trumania.C10_random_timestamps",
    "Trumania.C10_fixed_timestamps",
    "Trumania.C10_subsecond_step"
   ],
   "note": ""
  },
  {
   "property": "C11",
   "status": "proved",
   "theorems": [
    "Trumania.C11_clock_runs"
   ],
   "note": ""
  },
  {
   "property": "C12",
   "status": "proved",
   "theorems": [
    "Trumania.C12_cdf_of_rotated_weights",
    "Trumania.C12_cdf_shape",
    "Trumania.C12_full_cycle"
   ],
   "note": ""
  },
  {
   "property": "C13",
   "status": "partial",
   "theorems": [
    "Trumania.C13_construction_aligned_partial",
    "Trumania.C13_construction_on_grid",
    "Trumania.C13_construction_hangs",
    "Trumania.C13_counterexample"
   ],
   "note": "The full claim is false: the micro-shift loop does not terminate when the clock is past the last label (counterexample proved). Proved for the other starts."
  },
  {
   "property": "C14",
   "status": "proved",
   "theorems": [
    "Trumania.C14_generated_timers",
    "Trumania.C14_nonpositive_activity",
    "Trumania.C14_cells"
   ],
   "note": ""
  },
  {
   "property": "C15",
   "status": "partial",
   "theorems": [
    "Trumania.C15_positive_weight_bin_partial",
    "Trumania.C15_counterexample",
    "Trumania.C15_reset_acts_in_bin"
   ],
   "note": "The full claim is false: bin index 0 makes the member act one step later even when the target bin has weight zero (C15_counterexample). Proved: a timer of at least 1 leads to a bin of positive weight, and the story next executes exactly at that bin (C15_reset_acts_in_bin)."
  },
  {
   "property": "C16",
   "status": "proved",
   "theorems": [
    "Trumania.C16_step",
    "Trumania.C16_content_of_additions",
    "Trumania.C16_additions_total"
   ],
   "note": ""
  },
  {
   "property": "C17",
   "status": "proved",
   "theorems": [
    "Trumania.C17_get_relations_some",
    "Trumania.C17_neighbourhood_size",
    "Trumania.C17_unique_tos"
   ],
   "note": ""
  },
  {
   "property": "C18",
   "status": "partial",
   "theorems": [
    "Trumania.C18_remove_relations_effect",
    "Trumania.C18_remove_relations_partial",
    "Trumania.C18_unknown_from_counterexample"
   ],
   "note": "The full claim is false for froms without relation: the pairs are added with weight 0 (C18_unknown_from_counterexample). Proved when every listed from has a relation; the exact effect in the general case is C18_remove_relations_effect."
  },
  {
   "property": "C19",
   "status": "proved",
   "theorems": [
    "Trumania.C19_select_one_rows",
    "Trumania.C19_select_one_none",
    "Trumania.C19_select_one_total"
   ],
   "note": ""
  },
  {
   "property": "C20",
   "status": "proved",
   "theorems": [
    "Trumania.C20_one_to_one"
   ],
   "note": ""
  },
  {
   "property": "C21",
   "status": "proved",
   "theorems": [
    "Trumania.C21_pop_removes_returned",
    "Trumania.C21_emptied_from_disappears"
   ],
   "note": ""
  },
  {
   "property": "C22",
   "status": "proved",
   "theorems": [
    "Trumania.C22_zero_weight_never_selected"
   ],
   "note": ""
  },
  {
   "property": "C23",
   "status": "proved",
   "theorems": [
    "Trumania.C23_overridden_weights_cover_all_tos",
    "Trumania.C23_no_override_no_assert"
   ],
   "note": ""
  },
  {
   "property": "C24",
   "status": "proved",
   "theorems": [
    "Trumania.C24_select_many_quantities"
   ],
   "note": ""
  },
  {
   "property": "C25",
   "status": "proved",
   "theorems": [
    "Trumania.C25_select_many_labels"
   ],
   "note": ""
  },
  {
   "property": "C26",
   "status": "partial",
   "theorems": [
    "Trumania.C26_pop_effect",
    "Trumania.C26_select_many_pop_partial",
    "Trumania.C26_two_requests_counterexample"
   ],
   "note": "The full claim is false when two requests are on the same from (C26_two_requests_counterexample). Proved when each from is requested once; the exact effect in the general case is C26_pop_effect."
  },
  {
   "property": "C27",
   "status": "proved",
   "theorems": [
    "Trumania.C27_stock_conserved"
   ],
   "note": ""
  },
  {
   "property": "C28",
   "status": "proved",
   "theorems": [
    "Trumania.C28_select_all_operation",
    "Trumania.C28_select_all_horizontal"
   ],
   "note": ""
  },
  {
   "property": "C29",
   "status": "proved",
   "theorems": [
    "Trumania.C29_sessions_repeatable",
    "Trumania.C29_seeded_session"
   ],
   "note": ""
  },
  {
   "property": "C30",
   "status": "proved",
   "theorems": [
    "Trumania.C30_exactly_timer_zero_acts"
   ],
   "note": ""
  },
  {
   "property": "C31",
   "status": "proved",
   "theorems": [
    "Trumania.C31_waiting_members_tick",
    "Trumania.C31_waiting_members_tick_calls"
   ],
   "note": ""
  },
  {
   "property": "C32",
   "status": "proved",
   "theorems": [
    "Trumania.C32_force_sets_timer",
    "Trumania.C32_forced_acts_next",
    "Trumania.C32_forced_during_own_execution"
   ],
   "note": ""
  },
  {
   "property": "C33",
   "status": "proved",
   "theorems": [
    "Trumania.C33_forcing_is_one_shot"
   ],
   "note": ""
  },
  {
   "property": "C34",
   "status": "proved",
   "theorems": [
    "Trumania.C34_auto_reset_reschedules"
   ],
   "note": ""
  },
  {
   "property": "C35",
   "status": "proved",
   "theorems": [
    "Trumania.C35_acts_once",
    "Trumania.C35_all_start_inactive"
   ],
   "note": ""
  },
  {
   "property": "C36",
   "status": "proved",
   "theorems": [
    "Trumania.C36_timer_counts_executions",
    "Trumania.C36_negative_timer_never_acts"
   ],
   "note": ""
  },
  {
   "property": "C37",
   "status": "proved",
   "theorems": [
    "Trumania.C37_reset_of_inactive",
    "Trumania.C37_auto_reset_of_inactive",
    "Trumania.C37_creation_of_inactive",
    "Trumania.C37_inactive_never_acts"
   ],
   "note": ""
  },
  {
   "property": "C38",
   "status": "partial",
   "theorems": [
    "Trumania.C38_no_member_is_lost_partial",
    "Trumania.C38_counterexample"
   ],
   "note": "The full claim is false: an operation of the member's own story that resets its timer to 0 in an execution in which it does not act is followed by a tick to -1 (C38_counterexample). Proved for the histories without such a reset; acting again then follows from C36_timer_counts_executions."
  },
  {
   "property": "C39",
   "status": "proved",
   "theorems": [
    "Trumania.C39_back_to_default",
    "Trumania.C39_at_the_end_of_the_operations"
   ],
   "note": ""
  },
  {
   "property": "C40",
   "status": "proved",
   "theorems": [
    "Trumania.C40_get_param",
    "Trumania.C40_get_param_total",
    "Trumania.C40_transit_to_state",
    "Trumania.C40_transit_to_state_total"
   ],
   "note": ""
  },
  {
   "property": "C41",
   "status": "proved",
   "theorems": [
    "Trumania.C41_default_not_redefinable",
    "Trumania.C41_states_of_a_new_story"
   ],
   "note": ""
  },
  {
   "property": "C42",
   "status": "proved",
   "theorems": [
    "Trumania.C42_raises",
    "Trumania.C42_later_not_executed",
    "Trumania.C42_empty",
    "Trumania.C42_nesting",
    "Trumania.C42_sequential"
   ],
   "note": ""
  },
  {
   "property": "C43",
   "status": "proved",
   "theorems": [
    "Trumania.C43_rows_kept",
    "Trumania.C43_fields_kept",
    "Trumania.C43_built_in",
    "Trumania.C43_generate",
    "Trumania.C43_generate_from_field"
   ],
   "note": ""
  },
  {
   "property": "C44",
   "status": "proved",
   "theorems": [
    "Trumania.C44_one_operation",
    "Trumania.C44_at_each_point",
    "Trumania.C44_in_execution",
    "Trumania.C44_of_execute",
    "Trumania.C44_side_effects",
    "Trumania.C44_loggers",
    "Trumania.C44_lookups"
   ],
   "note": ""
  },
  {
   "property": "C45",
   "status": "partial",
   "theorems": [
    "Trumania.C45_all_columns",
    "Trumania.C45_selected_columns",
    "Trumania.C45_selected_columns_total",
    "Trumania.C45_exploded_partial",
    "Trumania.C45_exploded_total",
    "Trumania.C45_counterexample_empty",
    "Trumania.C45_counterexample_no_element"
   ],
   "note": "The full claim is false with exploded columns when the story data is empty (ValueError, C45_counterexample_empty) or when no row holds any list element while other columns are logged (KeyError, C45_counterexample_no_element). Proved otherwise: one line per list element, with the other fields repeated."
  },
  {
   "property": "C46",
   "status": "proved",
   "theorems": [
    "Trumania.C46_drop_row",
    "Trumania.C46_total"
   ],
   "note": ""
  },
  {
   "property": "C47",
   "status": "proved",
   "theorems": [
    "Trumania.C47_bulk_values",
    "Trumania.C47_dependent_bulk",
    "Trumania.C47_dependent_bulk_counts",
    "Trumania.C47_operation"
   ],
   "note": ""
  },
  {
   "property": "C48",
   "status": "proved",
   "theorems": [
    "Trumania.C48_bound_value_inside",
    "Trumania.C48_bound_value_outside",
    "Trumania.C48_bound_value_clamp",
    "Trumania.C48_bound_value_inconsistent"
   ],
   "note": ""
  },
  {
   "property": "C49",
   "status": "proved",
   "theorems": [
    "Trumania.C49_bounded_sigmoid"
   ],
   "note": ""
  },
  {
   "property": "C50",
   "status": "proved",
   "theorems": [
    "Trumania.C50_trigger_certainties",
    "Trumania.C50_trigger_total"
   ],
   "note": ""
  },
  {
   "property": "C51",
   "status": "proved",
   "theorems": [
    "Trumania.C51_construction",
    "Trumania.C51_history",
    "Trumania.C51_update",
    "Trumania.C51_members_never_leave",
    "Trumania.C51_in_execution"
   ],
   "note": ""
  },
  {
   "property": "C52",
   "status": "partial",
   "theorems": [
    "Trumania.C52_sequential_population",
    "Trumania.C52_size_partial",
    "Trumania.C52_counterexample"
   ],
   "note": "The full claim is false: Population.update adds members without updating size (C52_counterexample). Proved for the histories without such an update."
  },
  {
   "property": "C53",
   "status": "proved",
   "theorems": [
    "Trumania.C53_created_values",
    "Trumania.C53_wrong_number_of_values",
    "Trumania.C53_created_from_relationship",
    "Trumania.C53_transform",
    "Trumania.C53_update",
    "Trumania.C53_update_duplicates",
    "Trumania.C53_get_values",
    "Trumania.C53_unknown_id",
    "Trumania.C53_history",
    "Trumania.C53_operation"
   ],
   "note": ""
  },
  {
   "property": "C54",
   "status": "proved",
   "theorems": [
    "Trumania.C54_add",
    "Trumania.C54_unknown_id",
    "Trumania.C54_add_subtract",
    "Trumania.C54_operation",
    "Trumania.C54_operations_cancel"
   ],
   "note": ""
  },
  {
   "property": "C55",
   "status": "proved",
   "theorems": [
    "Trumania.C55_members",
    "Trumania.C55_refused",
    "Trumania.C55_update",
    "Trumania.C55_operation_refused",
    "Trumania.C55_operation"
   ],
   "note": ""
  },
  {
   "property": "C56",
   "status": "proved",
   "theorems": [
    "Trumania.C56_lookup",
    "Trumania.C56_unknown_id",
    "Trumania.C56_unknown_id_in_list"
   ],
   "note": ""
  },
  {
   "property": "C57",
   "status": "partial",
   "theorems": [
    "Trumania.C57_own_weight_partial",
    "Trumania.C57_selects",
    "Trumania.C57_history_partial",
    "Trumania.C57_counterexample"
   ],
   "note": "The full claim is false: Attribute.update sorts the table while the ids of the population keep their order, so on a population not listed in increasing order the weights go to the wrong members (C57_counterexample). Proved when the attribute lists the members in the order of the population, which any careful history keeps when the ids are increasing (C57_history_partial)."
  },
  {
   "property": "C58",
   "status": "partial",
   "theorems": [
    "Trumania.C58_population_refused",
    "Trumania.C58_story_refused",
    "Trumania.C58_generator_refused",
    "Trumania.C58_population_created",
    "Trumania.C58_names_kept_partial",
    "Trumania.C58_relationship_counterexample",
    "Trumania.C58_population_loaded"
   ],
   "note": "The full claim is false for relationships: create_relationship compares the name with the dictionary itself, so it never refuses and replaces the relationship (C58_relationship_counterexample). Proved for populations, stories and generators, along any history of attempted creations."
  },
  {
   "property": "C59",
   "status": "proved",
   "theorems": [
    "Trumania.C59_run",
    "Trumania.C59_builtIn_keepsDate"
   ],
   "note": ""
  },
  {
   "property": "C60",
   "status": "partial",
   "theorems": [
    "Trumania.C60_logs",
    "Trumania.C60_file",
    "Trumania.C60_read_back_partial",
    "Trumania.C60_counterexample_columns"
   ],
   "note": "Content, order, header and existence of the log files are proved in full (C60_logs, C60_file). Reading back is partial: it fails for the texts of C63 and for tables of different columns under one log id (C60_counterexample_columns)."
  },
  {
   "property": "C61",
   "status": "proved",
   "theorems": [
    "Trumania.C61_refused",
    "Trumania.C61_delete",
    "Trumania.C61_outside"
   ],
   "note": ""
  },
  {
   "property": "C62",
   "status": "proved",
   "theorems": [
    "Trumania.C62_deletes_one_tree",
    "Trumania.C62_terminates",
    "Trumania.C62_idempotent"
   ],
   "note": ""
  },
  {
   "property": "C63",
   "status": "partial",
   "theorems": [
    "Trumania.C63_roundtrip_partial",
    "Trumania.C63_injective_partial",
    "Trumania.C63_counterexample_cr",
    "Trumania.C63_counterexample_cr_split",
    "Trumania.C63_counterexample_nul",
    "Trumania.C63_counterexample_blank"
   ],
   "note": "The full claim is false for cells with carriage returns or NUL characters, tables of one column with blank cells, and a leading byte order mark (counterexamples proved). Proved for all other texts."
  },
  {
   "property": "C64",
   "status": "partial",
   "theorems": [
    "Trumania.Relationship.C64_reloaded_partial",
    "Trumania.Relationship.C64_counterexample_digits",
    "Trumania.Relationship.C64_counterexample_mixed",
    "Trumania.Relationship.C64_counterexample_na",
    "Trumania.Relationship.C64_counterexample_empty"
   ],
   "note": "The full claim is false: ids made of digits come back as numbers, numbers mixed with texts come back as texts, ids such as null come back as missing values, and the file of a relationship without relation cannot be loaded (counterexamples proved). Proved for relationships with relations whose ids are all numbers, or all texts kept by the CSV format."
  },
  {
   "property": "C65",
   "status": "partial",
   "theorems": [
    "Trumania.C65_reload_restarts_partial",
    "Trumania.C65_save_is_faithful",
    "Trumania.C65_reload_counterexample"
   ],
   "note": "The full claim is false: the restored state is not the one used by the bound numpy method (counterexample proved)."
  },
  {
   "property": "C66",
   "status": "partial",
   "theorems": [
    "Trumania.Db.C66_restored_partial",
    "Trumania.Db.C66_sequential_restored_partial",
    "Trumania.Db.C66_numpy_restarts_partial",
    "Trumania.Db.C66_counterexample_no_population",
    "Trumania.Db.C66_counterexample_dot",
    "Trumania.Db.C66_counterexample_constant"
   ],
   "note": "Proved for circuses with at least one population, whose ids, attribute values and relations keep their type in CSV files, whose generators can be saved, with no dot in generator ids (Storable). The JSON and number formats are contracts. Missing: the other circuses, refuted by C66_counterexample_no_population, _dot, _constant and those of C64; numpy generators restart from seed 1234 (C66_numpy_restarts_partial, C65)."
  },
  {
   "property": "C67",
   "status": "proved",
   "theorems": [
    "Trumania.Db.C67_refuses",
    "Trumania.Db.C67_only_namespace"
   ],
   "note": ""
  },
  {
   "property": "C68",
   "status": "proved",
   "theorems": [
    "Trumania.C68_seeds",
    "Trumania.C68_used_in_order",
    "Trumania.C68_circus",
    "Trumania.C68_own_seed"
   ],
   "note": ""
  },
  {
   "property": "C69",
   "status": "proved",
   "theorems": [
    "Trumania.C69_work_hours",
    "Trumania.C69_work_hours_rejected",
    "Trumania.C69_work_hours_calendar",
    "Trumania.C69_week_days_calendar",
    "Trumania.C69_daily_calendar"
   ],
   "note": ""
  },
  {
   "property": "C70",
   "status": "proved",
   "theorems": [
    "Trumania.C70_links",
    "Trumania.C70_symmetric",
    "Trumania.C70_total"
   ],
   "note": ""
  },
  {
   "property": "C71",
   "status": "proved",
   "theorems": [
    "Trumania.C71_count_library",
    "Trumania.C71_stock",
    "Trumania.C71_count",
    "Trumania.C71_total",
    "Trumania.C71_grouped"
   ],
   "note": ""
  },
  {
   "property": "C72",
   "status": "proved",
   "theorems": [
    "Trumania.C72_bipartite",
    "Trumania.C72_bipartite_empty",
    "Trumania.C72_bipartite_total"
   ],
   "note": ""
  },
  {
   "property": "C73",
   "status": "proved",
   "theorems": [
    "Trumania.C73_activity",
    "Trumania.C73_activity_per_cycle",
    "Trumania.C73_activity_zero"
   ],
   "note": ""
  },
  {
   "property": "C74",
   "status": "proved",
   "theorems": [
    "Trumania.AnyGen.C74_as_many_as_asked"
   ],
   "note": ""
  },
  {
   "property": "C75",
   "status": "proved",
   "theorems": [
    "Trumania.AnyGen.C75_one_per_observation",
    "Trumania.C75_in_circus"
   ],
   "note": ""
  },
  {
   "property": "C76",
   "status": "proved",
   "theorems": [
    "Trumania.C76_random_assign"
   ],
   "note": ""
  },
  {
   "property": "C77",
   "status": "proved",
   "theorems": [
    "Trumania.C77_proportions"
   ],
   "note": ""
  },
  {
   "property": "C78",
   "status": "partial",
   "theorems": [
    "Trumania.C78_ids",
    "Trumania.C78_load_all_logs_partial",
    "Trumania.C78_counterexample",
    "Trumania.C78_column_names"
   ],
   "note": "Existence, ids, order and rows are proved for all runs; the values are those logged if each log has the same columns each time and columns of values that keep their type in CSV files (StorableLog). The full claim is false: texts made of digits, such as phone numbers, become numbers (C78_counterexample)."
  },
  {
   "property": "C79",
   "status": "proved",
   "theorems": [
    "Trumania.C79_map",
    "Trumania.C79_map_arguments",
    "Trumania.C79_flatmap_refused",
    "Trumania.C79_flatmap_bulk",
    "Trumania.C79_trigger_needs_array",
    "Trumania.C79_derived_counts"
   ],
   "note": ""
  },
  {
   "property": "C80",
   "status": "proved",
   "theorems": [
    "Trumania.C80_shared_ids",
    "Trumania.C80_negative_size_repeats"
   ],
   "note": ""
  },
  {
   "property": "C81",
   "status": "proved",
   "theorems": [
    "Trumania.C81_stock_of_ids"
   ],
   "note": ""
  },
  {
   "property": "C82",
   "status": "proved",
   "theorems": [
    "Trumania.C82_field_kept",
    "Trumania.C82_field_logged",
    "Trumania.C82_generator_kept",
    "Trumania.C82_log_ids"
   ],
   "note": ""
  },
  {
   "property": "C83",
   "status": "proved",
   "theorems": [
    "Trumania.C83_unique_ids",
    "Trumania.C83_unique_in_the_file"
   ],
   "note": ""
  },
  {
   "property": "C84",
   "status": "proved",
   "theorems": [
    "Trumania.C84_operation",
    "Trumania.C84_execute",
    "Trumania.C84_played",
    "Trumania.C84_run"
   ],
   "note": ""
  },
  {
   "property": "C85",
   "status": "partial",
   "theorems": [
    "Trumania.C85_create_story_partial",
    "Trumania.C85_refused_partial",
    "Trumania.C85_counterexample_shared"
   ],
   "note": "Proved when no generator is used for two states of the story. The full claim is false otherwise: the states are handled in the order of a set, so that states which share a generator exchange their draws (C85_counterexample_shared). The exceptions of creations that raise are not compared."
  },
  {
   "property": "C86",
   "status": "proved",
   "theorems": [
    "Trumania.C86_probability",
    "Trumania.C86_select_one"
   ],
   "note": ""
  },
  {
   "property": "C87",
   "status": "proved",
   "theorems": [
    "Trumania.C87_back_to_default"
   ],
   "note": ""
  },
  {
   "property": "C88",
   "status": "proved",
   "theorems": [
    "Trumania.C88_trigger",
    "Trumania.C88_choice"
   ],
   "note": ""
  },
  {
   "property": "C89",
   "status": "proved",
   "theorems": [
    "Trumania.C89_timers",
    "Trumania.C89_probability"
   ],
   "note": ""
  },
  {
   "property": "C90",
   "status": "proved",
   "theorems": [
    "Trumania.C90_parameters_of_a_new_story"
   ],
   "note": ""
  },
  {
   "property": "C91",
   "status": "proved",
   "theorems": [
    "Trumania.C91_random_values",
    "Trumania.C91_bulk_values",
    "Trumania.C91_random_values_from_field",
    "Trumania.C91_fixed_timestamps",
    "Trumania.C91_random_timestamps",
    "Trumania.C91_neighbourhood_size",
    "Trumania.C91_apply_series",
    "Trumania.C91_apply_frame",
    "Trumania.C91_copy_if"
   ],
   "note": ""
  },
  {
   "property": "C92",
   "status": "proved",
   "theorems": [
    "Trumania.C92_select_one",
    "Trumania.C92_select_many",
    "Trumania.C92_zero_weight"
   ],
   "note": ""
  },
  {
   "property": "C93",
   "status": "partial",
   "theorems": [
    "Trumania.C93_add",
    "Trumania.C93_add_grouped",
    "Trumania.C93_additions_succeed",
    "Trumania.C93_remove_partial",
    "Trumania.C93_remove_counterexample"
   ],
   "note": "add and add_grouped are proved. The claim on remove is false: the operation calls a method that does not exist and raises on any non-empty data (C93_remove_counterexample); C93_remove_partial states what it does."
  },
  {
   "property": "C94",
   "status": "proved",
   "theorems": [
    "Trumania.C94_force_act_next",
    "Trumania.C94_reset_timers",
    "Trumania.C94_transit_to_state",
    "Trumania.C94_transit_arguments"
   ],
   "note": ""
  },
  {
   "property": "C95",
   "status": "proved",
   "theorems": [
    "Trumania.C95_to_dataframe",
    "Trumania.C95_missing_value",
    "Trumania.C95_round_trip"
   ],
   "note": ""
  },
  {
   "property": "C96",
   "status": "proved",
   "theorems": [
    "Trumania.C96_execution",
    "Trumania.C96_in_a_run",
    "Trumania.C96_chronological",
    "Trumania.C96_in_the_file"
   ],
   "note": ""
  },
  {
   "property": "C97",
   "status": "proved",
   "theorems": [
    "Trumania.C97_no_action_without_trigger",
    "Trumania.C97_in_a_run",
    "Trumania.C97_trigger_schedules",
    "Trumania.C97_repairs_follow_breakdowns"
   ],
   "note": ""
  },
  {
   "property": "C98",
   "status": "proved",
   "theorems": [
    "Trumania.Db.C98_saved_distribution_restored",
    "Trumania.Db.C98_too_large_refused",
    "Trumania.Db.C98_lengths_refused",
    "Trumania.Db.C98_draws_iff",
    "Trumania.Db.C98_draws_saved_values"
   ],
   "note": ""
  },
  {
   "property": "C99",
   "status": "proved",
   "theorems": [
    "Trumania.Db.C99_refused_type_not_loaded",
    "Trumania.Db.C99_other_generators_not_loaded",
    "Trumania.Db.C99_after_saving_a_distribution"
   ],
   "note": ""
  },
  {
   "property": "C100",
   "status": "proved",
   "theorems": [
    "Trumania.C100_items_change_hands",
    "Trumania.C100_bulks_change_hands",
    "Trumania.C100_story_conserves",
    "Trumania.C100_run_conserves",
    "Trumania.C100_played",
    "Trumania.C100_duplicated_without_one_to_one",
    "Trumania.C100_empty_item_without_discard",
    "Trumania.C100_lost_by_dropped_rows"
   ],
   "note": ""
  },
  {
   "property": "C101",
   "status": "proved",
   "theorems": [
    "Trumania.C101_safe_operation",
    "Trumania.C101_set_operations",
    "Trumania.C101_story",
    "Trumania.C101_run",
    "Trumania.C101_sequence",
    "Trumania.C101_uniform",
    "Trumania.C101_choice",
    "Trumania.C101_cyclic_timer",
    "Trumania.C101_trigger",
    "Trumania.C101_update_of_same_member_raises",
    "Trumania.C101_unknown_state_raises_later",
    "Trumania.C101_same_column_raises"
   ],
   "note": ""
  },
  {
   "property": "C102",
   "status": "proved",
   "theorems": [
    "Trumania.C102_range",
    "Trumania.C102_monotone",
    "Trumania.C102_documented_curve",
    "Trumania.C102_floor"
   ],
   "note": ""
  },
  {
   "property": "C103",
   "status": "partial",
   "theorems": [
    "Trumania.C103_sizes",
    "Trumania.C103_repeatable_partial",
    "Trumania.C103_one_stream",
    "Trumania.C103_second_generator_rewinds",
    "Trumania.C103_counterexample"
   ],
   "note": "The full claim is false: Faker.seed seeds one stream shared by all Faker objects, so constructing or calling another generator changes the values (C103_counterexample, C103_second_generator_rewinds). Proved: the values depend only on the last seed given to any Faker generator and on the calls made since, on any of them (C103_repeatable_partial)."
  },
  {
   "property": "C104",
   "status": "proved",
   "theorems": [
    "Trumania.C104_sale",
    "Trumania.C104_delivery",
    "Trumania.C104_execution",
    "Trumania.C104_never_oversold",
    "Trumania.C104_exact_account",
    "Trumania.C104_stranger",
    "Trumania.C104_oversold_without_one_to_one"
   ],
   "note": ""
  },
  {
   "property": "C105",
   "status": "proved",
   "theorems": [
    "Trumania.Snd.C105_broke_dealer",
    "Trumania.Snd.C105_at_most_three",
    "Trumania.Snd.C105_run",
    "Trumania.Snd.C105_dealer_ids"
   ],
   "note": ""
  },
  {
   "property": "C106",
   "status": "partial",
   "theorems": [
    "Trumania.Snd.C106_sims_partial",
    "Trumania.Snd.C106_held_once_partial",
    "Trumania.Snd.C106_dealer_ids",
    "Trumania.Snd.C106_sizes",
    "Trumania.Snd.C106_counterexample"
   ],
   "note": "The full claim is false: when two dealers buy from one distributor in the same step, select_many can hand the same SIM to both and pop it once (C106_counterexample; in the test there are far more dealers than distributors). Proved for circuses in which no two dealers share a distributor (C106_sims_partial, C106_held_once_partial)."
  },
  {
   "property": "C107",
   "status": "proved",
   "theorems": [
    "Trumania.AnyGen.C107_two_calls",
    "Trumania.AnyGen.C107_batches",
    "Trumania.AnyGen.C107_two_observations",
    "Trumania.AnyGen.C107_msisdn",
    "Trumania.AnyGen.C107_msisdn_counterexample",
    "Trumania.AnyGen.C107_cyclic_counterexample",
    "Trumania.AnyGen.C107_bulk",
    "Trumania.World.C107_in_circus"
   ],
   "note": ""
  },
  {
   "property": "C108",
   "status": "proved",
   "theorems": [
    "Trumania.C108_call",
    "Trumania.C108_logged_values",
    "Trumania.C108_bounds"
   ],
   "note": ""
  },
  {
   "property": "C109",
   "status": "proved",
   "theorems": [
    "Trumania.C109_active_hours",
    "Trumania.C109_logs",
    "Trumania.C109_run",
    "Trumania.C109_new_story",
    "Trumania.C109_near",
    "Trumania.C109_work_hours",
    "Trumania.C109_counterexample"
   ],
   "note": ""
  },
  {
   "property": "C110",
   "status": "proved",
   "theorems": [
    "Trumania.Cdr.C110_numbers_kept",
    "Trumania.Cdr.C110_execution",
    "Trumania.Cdr.C110_ledger"
   ],
   "note": ""
  },
  {
   "property": "C111",
   "status": "proved",
   "theorems": [
    "Trumania.Cdr.C111_records",
    "Trumania.Cdr.C111_run",
    "Trumania.Cdr.C111_constant"
   ],
   "note": ""
  },
  {
   "property": "C112",
   "status": "proved",
   "theorems": [
    "Trumania.Cdr.C112_once_each"
   ],
   "note": ""
  },
  {
   "property": "C113",
   "status": "proved",
   "theorems": [
    "Trumania.Cdr.C113_execution",
    "Trumania.Cdr.C113_journal"
   ],
   "note": ""
  },
  {
   "property": "C114",
   "status": "proved",
   "theorems": [
    "Trumania.Cdr.C114_topup"
   ],
   "note": ""
  },
  {
   "property": "C115",
   "status": "proved",
   "theorems": [
    "Trumania.Cdr.C115_built",
    "Trumania.Cdr.C115_numbers_unique",
    "Trumania.Cdr.C115_balance",
    "Trumania.Cdr.C115_records"
   ],
   "note": ""
  },
  {
   "property": "C116",
   "status": "proved",
   "theorems": [
    "Trumania.Cdr.C116_status",
    "Trumania.Cdr.C116_run",
    "Trumania.Cdr.C116_certain",
    "Trumania.Cdr.C116_built"
   ],
   "note": ""
  },
  {
   "property": "C117",
   "status": "proved",
   "theorems": [
    "Trumania.Cdr.C117_trigger",
    "Trumania.Cdr.C117_topup",
    "Trumania.Cdr.C117_run",
    "Trumania.Cdr.C117_certain",
    "Trumania.Cdr.C117_built"
   ],
   "note": ""
  },
  {
   "property": "C118",
   "status": "proved",
   "theorems": [
    "Trumania.Shop.C118_level",
    "Trumania.Shop.C118_reports"
   ],
   "note": ""
  },
  {
   "property": "C119",
   "status": "proved",
   "theorems": [
    "Trumania.Shop.C119_restocks",
    "Trumania.Shop.C119_levels"
   ],
   "note": ""
  },
  {
   "property": "C120",
   "status": "proved",
   "theorems": [
    "Trumania.Shop.C120_bought",
    "Trumania.Shop.C120_items",
    "Trumania.Shop.C120_purchases"
   ],
   "note": ""
  },
  {
   "property": "C121",
   "status": "proved",
   "theorems": [
    "Trumania.Shop.C121_trigger",
    "Trumania.Shop.C121_restock",
    "Trumania.Shop.C121_certain",
    "Trumania.Shop.C121_next",
    "Trumania.Shop.C121_why",
    "Trumania.Shop.C121_run",
    "Trumania.Shop.C121_previous",
    "Trumania.Shop.C121_bound"
   ],
   "note": ""
  },
  {
   "property": "C122",
   "status": "proved",
   "theorems": [
    "Trumania.Shop.C122_step5",
    "Trumania.Shop.C122_step4",
    "Trumania.Shop.C122_reports",
    "Trumania.Shop.C122_stock",
    "Trumania.Shop.C122_bound",
    "Trumania.Shop.C122_example"
   ],
   "note": ""
  },
  {
   "property": "C123",
   "status": "proved",
   "theorems": [
    "Trumania.Cdr.C123_execution",
    "Trumania.Cdr.C123_records",
    "Trumania.Cdr.C123_levels",
    "Trumania.Cdr.C123_journal",
    "Trumania.Cdr.C123_drawn",
    "Trumania.Cdr.C123_status",
    "Trumania.Cdr.C123_built"
   ],
   "note": ""
  },
  {
   "property": "C124",
   "status": "proved",
   "theorems": [
    "Trumania.C124_acts",
    "Trumania.C124_log",
    "Trumania.C124_created",
    "Trumania.Shop.C124_built",
    "Trumania.Shop.C124_reports",
    "Trumania.Shop.C124_run",
    "Trumania.Shop.C124_daily"
   ],
   "note": ""
  },
  {
   "property": "C125",
   "status": "proved",
   "theorems": [
    "Trumania.Shop.C125_level",
    "Trumania.Shop.C125_reports",
    "Trumania.Shop.C125_items",
    "Trumania.Shop.C125_built",
    "Trumania.Shop.C125_constant",
    "Trumania.Shop.C125_told",
    "Trumania.Shop.C125_bounds",
    "Trumania.Shop.C125_all"
   ],
   "note": ""
  },
  {
   "property": "C126",
   "status": "proved",
   "theorems": [
    "Trumania.Music.C126_who",
    "Trumania.Music.C126_records",
    "Trumania.Music.C126_constant",
    "Trumania.Music.C126_built",
    "Trumania.Music.C126_ids",
    "Trumania.Music.C126_genre",
    "Trumania.Music.C126_integers",
    "Trumania.Music.C126_activity"
   ],
   "note": ""
  },
  {
   "property": "C127",
   "status": "proved",
   "theorems": [
    "Trumania.Hello.C127_who",
    "Trumania.Hello.C127_records",
    "Trumania.Hello.C127_constant",
    "Trumania.Hello.C127_log",
    "Trumania.Hello.C127_built",
    "Trumania.Hello.C127_run"
   ],
   "note": ""
  },
  {
   "property": "C128",
   "status": "proved",
   "theorems": [
    "Trumania.Db.C128_create",
    "Trumania.Db.C128_create_again",
    "Trumania.Db.C128_remove",
    "Trumania.Db.C128_params_refused",
    "Trumania.Db.C128_params_saved",
    "Trumania.Db.C128_overwritten"
   ],
   "note": ""
  },
  {
   "property": "C129",
   "status": "proved",
   "theorems": [
    "Trumania.Circus.C129_description",
    "Trumania.Circus.C129_not_printed",
    "Trumania.Circus.C129_printed"
   ],
   "note": ""
  },
  {
   "property": "C130",
   "status": "proved",
   "theorems": [
    "Trumania.Snd.C130_execution",
    "Trumania.Snd.C130_run"
   ],
   "note": ""
  },
  {
   "property": "C131",
   "status": "proved",
   "theorems": [
    "Trumania.Blog.C131_who",
    "Trumania.Blog.C131_records",
    "Trumania.Blog.C131_constant",
    "Trumania.Blog.C131_isolated",
    "Trumania.Blog.C131_pace",
    "Trumania.Blog.C131_log",
    "Trumania.Blog.C131_built",
    "Trumania.Blog.C131_run",
    "Trumania.Firsts.C131_given",
    "Trumania.Firsts.C131_words"
   ],
   "note": ""
  },
  {
   "property": "C132",
   "status": "proved",
   "theorems": [
    "Trumania.Blog.C132_blog_runs",
    "Trumania.Hello.C132_hello_runs",
    "Trumania.Hello.C132_unpopular_raises",
    "Trumania.Music.C132_music_runs",
    "Trumania.Music.C132_music_step1_runs",
    "Trumania.Music.C132_no_genre_raises",
    "Trumania.Shop.C132_shop_runs",
    "Trumania.Shop.C132_no_pos_raises"
   ],
   "note": "C132_hello_runs, C132_shop_runs, C132_music_runs, C132_music_step1_runs, C132_blog_runs: a run of any duration succeeds, after any successful build. C132_unpopular_raises: popularities of 0 make step 7 raise; C132_no_pos_raises: without points of sale step 4 raises; C132_no_genre_raises: without genres step 2 raises; C131_isolated: a person without friends makes example 6 raise."
  },
  {
   "property": "C133",
   "status": "proved",
   "theorems": [
    "Trumania.Db.C133_saved",
    "Trumania.Db.C133_loaded"
   ],
   "note": "C133_saved, C133_loaded. What cannot be stored is that of C64 and C65 (empty relationships, texts that look like numbers)."
  },
  {
   "property": "C134",
   "status": "proved",
   "theorems": [
    "Trumania.Music.C134_built",
    "Trumania.Music.C134_runs"
   ],
   "note": "C134_built gives Ready and Opening, the hypotheses of C126_records, C126_ids, C126_genre, C126_integers and C126_activity. C134_runs: the run never raises (as C132_music_runs)."
  },
  {
   "property": "C135",
   "status": "proved",
   "theorems": [
    "Trumania.Firsts.C135_given",
    "Trumania.Firsts.C135_words",
    "Trumania.Slides.C135_who",
    "Trumania.Slides.C135_records",
    "Trumania.Slides.C135_constant",
    "Trumania.Slides.C135_log",
    "Trumania.Slides.C135_built",
    "Trumania.Slides.C135_run"
   ],
   "note": "C135_built gives Ready and Opening, the hypotheses of C135_who, C135_records, C135_constant and C135_log; C135_run is the whole run, with its log files. C135_given and C135_words: where the names, the ages, the sentences and the quotes come from."
  },
  {
   "property": "C136",
   "status": "proved",
   "theorems": [
    "Trumania.Slides.C136_slides_run"
   ],
   "note": "C136_slides_run, after any successful build."
  },
  {
   "property": "C137",
   "status": "proved",
   "theorems": [
    "Trumania.Builds.C137_slides_build",
    "Trumania.Builds.C137_slides",
    "Trumania.Builds.C137_blog_build",
    "Trumania.Builds.C137_blog",
    "Trumania.Builds.C137_six_nobody"
   ],
   "note": "C137_slides_build and C137_blog_build build from a new circus; C137_slides and C137_blog are the whole scripts; C137_six_nobody is the exception. Example 6 of the blog runs to the end under the hypothesis of C132_blog_runs that each person has a friend, which the random graph does not ensure."
  },
  {
   "property": "C138",
   "status": "proved",
   "theorems": [
    "Trumania.Builds.C138_hello_build",
    "Trumania.Builds.C138_hello",
    "Trumania.Builds.C138_no_friends"
   ],
   "note": "C138_hello_build builds from a new circus; C138_hello is the whole script; C138_no_friends is the ValueError of make_random_bipartite_data without edges. The hypothesis on the network (Friendly) is on the random graph, which the model takes as a parameter."
  },
  {
   "property": "C139",
   "status": "proved",
   "theorems": [
    "Trumania.Builds.C139_step1_build",
    "Trumania.Builds.C139_songs_build",
    "Trumania.Builds.C139_songs",
    "Trumania.Builds.C139_step1",
    "Trumania.Builds.C139_names",
    "Trumania.Builds.C139_no_artist_raises"
   ],
   "note": "C139_step1_build and C139_songs_build build from a new circus; C139_step1 and C139_songs are the whole scripts; C139_names and C139_no_artist_raises show that the number of names and the artist are needed (the latter on one circus)."
  },
  {
   "property": "C140",
   "status": "proved",
   "theorems": [
    "Trumania.Builds.C140_shop_build",
    "Trumania.Builds.C140_shop",
    "Trumania.Builds.C140_no_step_raises"
   ],
   "note": "C140_shop_build builds each step from a new circus; C140_shop is the whole script; C140_no_step_raises shows that the step of the clock is needed; that the point of sale is needed is C132_no_pos_raises."
  },
  {
   "property": "C141",
   "status": "proved",
   "theorems": [
    "Trumania.Snd.C141_stories",
    "Trumania.Snd.C141_snd_runs",
    "Trumania.Snd.C141_bulk_sizes",
    "Trumania.Snd.C141_usual",
    "Trumania.Snd.C141_sizes_needed",
    "Trumania.Snd.C141_weights_needed"
   ],
   "note": "C141_stories: no story raises after any executions; C141_snd_runs: a run of any duration completes; C141_bulk_sizes and C141_usual: the generators of the scenario are as they must be; C141_sizes_needed and C141_weights_needed show on a circus that is built that the sizes must be whole and the weights not negative."
  },
  {
   "property": "C142",
   "status": "proved",
   "theorems": [
    "Trumania.Snd.C142_snd_builds",
    "Trumania.Snd.C142_snd_never_raises",
    "Trumania.Snd.C142_agents_needed",
    "Trumania.Snd.C142_parameters_needed"
   ],
   "note": "C142_snd_builds: the constructor never raises; C142_snd_never_raises: from the creation to the end of the run; C142_agents_needed: never built without agents; C142_parameters_needed shows on one circus that the other conditions on parameters are needed."
  },
  {
   "property": "C143",
   "status": "proved",
   "theorems": [
    "Trumania.Firsts.C143_blog_one",
    "Trumania.Firsts.C143_slide_one",
    "Trumania.Firsts.C143_slide_two",
    "Trumania.Firsts.C143_blog_two"
   ],
   "note": "C143_blog_one: the table of the first ten persons; C143_slide_one: the run of an empty circus; C143_slide_two: the run, then the table; C143_blog_two: the records of the log hello. Each theorem includes that the script does not raise."
  }
 ]
}