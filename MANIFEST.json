{
 "claims": [
  {
   "property": "C01",
   "status": "proved",
   "theorems": [
    "DLB.C01_senders_and_receivers_agree"
   ],
   "note": ""
  },
  {
   "property": "C02",
   "status": "proved",
   "theorems": [
    "DLB.C02_never_sender_and_receiver",
    "DLB.C02_classification",
    "DLB.C02_assertion_holds"
   ],
   "note": ""
  },
  {
   "property": "C03",
   "status": "proved",
   "theorems": [
    "DLB.C03_peers_distinct_and_valid"
   ],
   "note": ""
  },
  {
   "property": "C04",
   "status": "proved",
   "theorems": [
    "DLB.C04_planning_terminates",
    "DLB.C04_no_ranks_is_undefined",
    "DLB.C04_state_valid",
    "DLB.C04_validity_check"
   ],
   "note": ""
  },
  {
   "property": "C05",
   "status": "proved",
   "theorems": [
    "DLB.C05_counts_partition_problems",
    "DLB.C05_states_partition_problems"
   ],
   "note": ""
  },
  {
   "property": "C06",
   "status": "proved",
   "theorems": [
    "DLB.C06_every_problem_solved_exactly_once"
   ],
   "note": ""
  },
  {
   "property": "C07",
   "status": "proved",
   "theorems": [
    "DLB.C07_solutions_come_home"
   ],
   "note": ""
  },
  {
   "property": "C08",
   "status": "proved",
   "theorems": [
    "DLB.C08_balancing_does_not_change_answer"
   ],
   "note": ""
  },
  {
   "property": "C09",
   "status": "proved",
   "theorems": [
    "DLB.C09_histories_agree"
   ],
   "note": ""
  },
  {
   "property": "C10",
   "status": "proved",
   "theorems": [
    "DLB.C10_every_schedule",
    "DLB.C10_complete_schedules_agree",
    "DLB.C10_step_ends_if_cells_can_be_solved"
   ],
   "note": ""
  },
  {
   "property": "C11",
   "status": "proved",
   "theorems": [
    "DLB.C11_transfer_fits_and_is_maximal"
   ],
   "note": ""
  },
  {
   "property": "C12",
   "status": "proved",
   "theorems": [
    "DLB.C12_loop_conserves_total",
    "DLB.C12_operations_conserve_total"
   ],
   "note": ""
  },
  {
   "property": "C13",
   "status": "proved",
   "theorems": [
    "DLB.C13_full_plan_levels"
   ],
   "note": ""
  },
  {
   "property": "C14",
   "status": "proved",
   "theorems": [
    "DLB.C14_only_overloaded_send"
   ],
   "note": ""
  },
  {
   "property": "C15",
   "status": "proved",
   "theorems": [
    "DLB.C15_never_past_the_mean"
   ],
   "note": ""
  },
  {
   "property": "C16",
   "status": "proved",
   "theorems": [
    "DLB.C16_work_bounded",
    "DLB.C16_makespan_never_grows"
   ],
   "note": ""
  },
  {
   "property": "C17",
   "status": "proved",
   "theorems": [
    "DLB.C17_equal_loads_no_traffic",
    "DLB.C17_equal_loads_keep_problems",
    "DLB.C17_serial_no_traffic"
   ],
   "note": ""
  },
  {
   "property": "C18",
   "status": "proved",
   "theorems": [
    "DLB.C18_one_global_plan"
   ],
   "note": ""
  },
  {
   "property": "C19",
   "status": "proved",
   "theorems": [
    "DLB.C19_remaining_imbalance"
   ],
   "note": ""
  },
  {
   "property": "C20",
   "status": "proved",
   "theorems": [
    "DLB.C20_load_round_trips",
    "DLB.C20_problem_round_trips",
    "DLB.C20_solution_round_trips",
    "DLB.C20_list_round_trips",
    "DLB.C20_stream_round_trips",
    "DLB.C20_truncated_is_rejected",
    "DLB.C20_only_written_messages_are_accepted"
   ],
   "note": ""
  },
  {
   "property": "C21",
   "status": "proved",
   "theorems": [
    "DLB.C21_computeLoad",
    "DLB.C21_min_mean_max",
    "DLB.C21_rankToLoadIdx"
   ],
   "note": ""
  },
  {
   "property": "C22",
   "status": "proved",
   "theorems": [
    "DLB.C22_solved_or_mapped"
   ],
   "note": ""
  },
  {
   "property": "C23",
   "status": "proved",
   "theorems": [
    "DLB.C23_only_eligible_mapped"
   ],
   "note": ""
  },
  {
   "property": "C24",
   "status": "proved",
   "theorems": [
    "DLB.C24_refMap_tells_truth",
    "DLB.C24_positive_tolerance",
    "DLB.C24_nonpositive_tolerance"
   ],
   "note": "For a tolerance <= 0 the negation is proved (C24_nonpositive_tolerance)."
  },
  {
   "property": "C25",
   "status": "proved",
   "theorems": [
    "DLB.C25_mapping_off"
   ],
   "note": ""
  },
  {
   "property": "C26",
   "status": "proved",
   "theorems": [
    "DLB.C26_update_frame"
   ],
   "note": ""
  },
  {
   "property": "C27",
   "status": "proved",
   "theorems": [
    "DLB.C27_every_cell_carries_rate_of_this_step",
    "DLB.C27_step_succeeds_iff"
   ],
   "note": ""
  },
  {
   "property": "C28",
   "status": "proved",
   "theorems": [
    "DLB.C28_returned_step_is_minimum",
    "DLB.C28_uniform_at_most_twice",
    "DLB.C28_not_a_bound_for_mapped_cells"
   ],
   "note": "C28_not_a_bound_for_mapped_cells: the minimum does not bound the mapped cells' time steps."
  },
  {
   "property": "C29",
   "status": "proved",
   "theorems": [
    "DLB.C29_chemistry_off_no_communication",
    "DLB.C29_chemistry_off_inert"
   ],
   "note": ""
  },
  {
   "property": "C30",
   "status": "proved",
   "theorems": [
    "DLB.C30_rate_is_mean_rate",
    "DLB.C30_steps_cover_time_step",
    "DLB.C30_terminates_with_progress"
   ],
   "note": ""
  },
  {
   "property": "C31",
   "status": "proved",
   "theorems": [
    "DLB.C31_inert_zero_rate",
    "DLB.C31_mass_conserved"
   ],
   "note": ""
  },
  {
   "property": "C32",
   "status": "proved",
   "theorems": [
    "DLB.C32_zero_in_oxidizer_one_in_fuel",
    "DLB.C32_equal_streams_are_accepted"
   ],
   "note": "C32_equal_streams_are_accepted: the constructor does not reject equal streams."
  },
  {
   "property": "C33",
   "status": "proved",
   "theorems": [
    "DLB.C33_affine",
    "DLB.C33_mixing",
    "DLB.C33_inert_species"
   ],
   "note": ""
  },
  {
   "property": "C34",
   "status": "proved",
   "theorems": [
    "DLB.C34_bilger"
   ],
   "note": ""
  },
  {
   "property": "C35",
   "status": "proved",
   "theorems": [
    "DLB.C35_setup_accepts_iff",
    "DLB.C35_mapper_construction"
   ],
   "note": ""
  },
  {
   "property": "C36",
   "status": "proved",
   "theorems": [
    "DLB.C36_mass_fractions_sum_to_one"
   ],
   "note": ""
  },
  {
   "property": "C37",
   "status": "partial",
   "theorems": [
    "DLB.C37_nonnegative_partial",
    "DLB.C37_last_species_can_be_negative"
   ],
   "note": "The full claim is false of the code (C37_last_species_can_be_negative); proved for all species but the last, and for the last if the others do not sum to more than one."
  },
  {
   "property": "C38",
   "status": "proved",
   "theorems": [
    "DLB.C38_layout",
    "DLB.C38_round_trip",
    "DLB.C38_original_layout"
   ],
   "note": ""
  },
  {
   "property": "C39",
   "status": "proved",
   "theorems": [
    "DLB.C39_right_hand_side_and_jacobian"
   ],
   "note": ""
  },
  {
   "property": "C40",
   "status": "proved",
   "theorems": [
    "DLB.C40_pressure_is_constant"
   ],
   "note": ""
  },
  {
   "property": "C41",
   "status": "proved",
   "theorems": [
    "DLB.C41_ends_exactly_at_the_end",
    "DLB.C41_otherwise_fatal",
    "DLB.C41_returns_with_progress"
   ],
   "note": ""
  },
  {
   "property": "C42",
   "status": "proved",
   "theorems": [
    "DLB.C42_history",
    "DLB.C42_history_of_integration",
    "DLB.C42_untruncated_suggestion",
    "DLB.C42_single_step"
   ],
   "note": ""
  },
  {
   "property": "C43",
   "status": "proved",
   "theorems": [
    "DLB.C43_scaled_maximum_norm"
   ],
   "note": ""
  },
  {
   "property": "C44",
   "status": "proved",
   "theorems": [
    "DLB.C44_sizes"
   ],
   "note": ""
  },
  {
   "property": "C45",
   "status": "proved",
   "theorems": [
    "DLB.C45_step_in_range",
    "DLB.C45_integration_in_range"
   ],
   "note": ""
  },
  {
   "property": "C46",
   "status": "proved",
   "theorems": [
    "DLB.C46_integration_ignores_history",
    "DLB.C46_cells_do_not_influence_each_other",
    "DLB.C46_positive_tolerances",
    "DLB.C46_zero_tolerance_remembers"
   ],
   "note": "For a zero relative tolerance the negation is proved (C46_zero_tolerance_remembers)."
  },
  {
   "property": "C47",
   "status": "proved",
   "theorems": [
    "DLB.C47_failed_attempt_halves_the_step",
    "DLB.C47_rejected_attempt",
    "DLB.C47_step_advances"
   ],
   "note": ""
  },
  {
   "property": "C48",
   "status": "proved",
   "theorems": [
    "DLB.C48_step_never_returns",
    "DLB.C48_integration_never_returns",
    "DLB.C48_original_layout_never_returns",
    "DLB.C48_frozen_cell_never_returns",
    "DLB.C48_step_returns",
    "DLB.C48_integration_returns",
    "DLB.C48_integration_returns_real"
   ],
   "note": "Termination from admissible states, and proofs of non-termination outside of them."
  },
  {
   "property": "C49",
   "status": "proved",
   "theorems": [
    "DLB.C49_accepted_step_is_extrapolation",
    "DLB.C49_polynomial_results"
   ],
   "note": ""
  },
  {
   "property": "C50",
   "status": "proved",
   "theorems": [
    "DLB.C50_sub_steps_are_linearly_implicit_euler"
   ],
   "note": ""
  },
  {
   "property": "C51",
   "status": "proved",
   "theorems": [
    "DLB.C51_step_sequence"
   ],
   "note": ""
  },
  {
   "property": "C52",
   "status": "proved",
   "theorems": [
    "DLB.C52_elements_conserved",
    "DLB.C52_dydt_conserves_elements"
   ],
   "note": ""
  },
  {
   "property": "C53",
   "status": "proved",
   "theorems": [
    "DLB.C53_mass_conserved",
    "DLB.C53_foam_weights"
   ],
   "note": ""
  },
  {
   "property": "C54",
   "status": "proved",
   "theorems": [
    "DLB.C54_conversions",
    "DLB.C54_roundtrip",
    "DLB.C54_mean_weight"
   ],
   "note": ""
  },
  {
   "property": "C55",
   "status": "proved",
   "theorems": [
    "DLB.C55_masks_inverse",
    "DLB.C55_species_order"
   ],
   "note": ""
  },
  {
   "property": "C56",
   "status": "proved",
   "theorems": [
    "DLB.C56_heat_release"
   ],
   "note": ""
  },
  {
   "property": "C57",
   "status": "proved",
   "theorems": [
    "DLB.C57_construction"
   ],
   "note": ""
  },
  {
   "property": "C58",
   "status": "proved",
   "theorems": [
    "DLB.C58_jacobian_after_rejection",
    "DLB.C58_first_step_jacobian",
    "DLB.C58_jacobian_origin"
   ],
   "note": ""
  },
  {
   "property": "C59",
   "status": "proved",
   "theorems": [
    "DLB.C59_accepted_error"
   ],
   "note": ""
  },
  {
   "property": "C60",
   "status": "proved",
   "theorems": [
    "DLB.C60_steps_keep_their_direction",
    "DLB.C60_first_and_truncated_steps_do_not_grow"
   ],
   "note": ""
  },
  {
   "property": "C61",
   "status": "proved",
   "theorems": [
    "DLB.C61_integration_is_chain_of_extrapolated_steps",
    "DLB.C61_end_of_integration"
   ],
   "note": ""
  },
  {
   "property": "C62",
   "status": "proved",
   "theorems": [
    "DLB.C62_species_rates"
   ],
   "note": ""
  },
  {
   "property": "C63",
   "status": "proved",
   "theorems": [
    "DLB.C63_mass_action"
   ],
   "note": ""
  },
  {
   "property": "C64",
   "status": "proved",
   "theorems": [
    "DLB.C64_pressure_modification"
   ],
   "note": ""
  },
  {
   "property": "C65",
   "status": "proved",
   "theorems": [
    "DLB.C65_concentrations"
   ],
   "note": ""
  },
  {
   "property": "C66",
   "status": "proved",
   "theorems": [
    "DLB.C66_no_undefined_behaviour"
   ],
   "note": ""
  },
  {
   "property": "C67",
   "status": "proved",
   "theorems": [
    "DLB.C67_reactor_equations"
   ],
   "note": ""
  },
  {
   "property": "C68",
   "status": "proved",
   "theorems": [
    "DLB.C68_absent_species_not_consumed"
   ],
   "note": ""
  },
  {
   "property": "C69",
   "status": "proved",
   "theorems": [
    "DLB.C69_solver_memory_has_no_effect",
    "DLB.C69_histories_agree",
    "DLB.C69_positive_tolerances",
    "DLB.C69_zero_tolerance_balancing_changes_answer"
   ],
   "note": ""
  },
  {
   "property": "C70",
   "status": "proved",
   "theorems": [
    "DLB.C70_linear_invariants_are_kept"
   ],
   "note": ""
  },
  {
   "property": "C71",
   "status": "proved",
   "theorems": [
    "DLB.C71_rest_state_is_kept",
    "DLB.C71_cell_at_rest"
   ],
   "note": ""
  },
  {
   "property": "C72",
   "status": "proved",
   "theorems": [
    "DLB.C72_elements_of_a_cell",
    "DLB.C72_rates_conserve_elements"
   ],
   "note": ""
  },
  {
   "property": "C73",
   "status": "proved",
   "theorems": [
    "DLB.C73_dormant_mixture",
    "DLB.C73_inert_gas",
    "DLB.C73_inert_cells_do_not_react"
   ],
   "note": ""
  },
  {
   "property": "C74",
   "status": "proved",
   "theorems": [
    "DLB.C74_rates_sum_to_zero"
   ],
   "note": ""
  },
  {
   "property": "C75",
   "status": "proved",
   "theorems": [
    "DLB.C75_nasa_polynomials"
   ],
   "note": ""
  },
  {
   "property": "C76",
   "status": "proved",
   "theorems": [
    "DLB.C76_heat_capacity_positive",
    "DLB.C76_energy_balance"
   ],
   "note": ""
  },
  {
   "property": "C77",
   "status": "proved",
   "theorems": [
    "DLB.C77_enthalpy_integrates_heat_capacity"
   ],
   "note": ""
  },
  {
   "property": "C78",
   "status": "proved",
   "theorems": [
    "DLB.C78_no_significant_jumps"
   ],
   "note": ""
  },
  {
   "property": "C79",
   "status": "proved",
   "theorems": [
    "DLB.C79_consistent_with_OpenFOAM"
   ],
   "note": ""
  },
  {
   "property": "C80",
   "status": "proved",
   "theorems": [
    "DLB.C80_arrhenius",
    "DLB.C80_relative_error"
   ],
   "note": ""
  },
  {
   "property": "C81",
   "status": "proved",
   "theorems": [
    "DLB.C81_equilibrium",
    "DLB.C81_relative_error",
    "DLB.C81_direction"
   ],
   "note": ""
  },
  {
   "property": "C82",
   "status": "proved",
   "theorems": [
    "DLB.C82_falloff"
   ],
   "note": ""
  },
  {
   "property": "C83",
   "status": "proved",
   "theorems": [
    "DLB.C83_species",
    "DLB.C83_temperature",
    "DLB.C83_poles"
   ],
   "note": "Away from the pole of Troe's formula, where C divides by zero and gets infinity; C83_poles says where that is the case."
  },
  {
   "property": "C84",
   "status": "proved",
   "theorems": [
    "DLB.C84_no_undefined_behaviour",
    "DLB.C84_kept_entries",
    "DLB.C84_buffer_must_be_initialised"
   ],
   "note": ""
  },
  {
   "property": "C85",
   "status": "proved",
   "theorems": [
    "DLB.C85_species_by_temperature",
    "DLB.C85_domain"
   ],
   "note": ""
  },
  {
   "property": "C86",
   "status": "proved",
   "theorems": [
    "DLB.C86_species_by_species"
   ],
   "note": ""
  },
  {
   "property": "C87",
   "status": "proved",
   "theorems": [
    "DLB.C87_temperature_by_species",
    "DLB.C87_temperature_by_temperature"
   ],
   "note": ""
  },
  {
   "property": "C88",
   "status": "proved",
   "theorems": [
    "DLB.C88_right_hand_side",
    "DLB.C88_jacobian"
   ],
   "note": ""
  },
  {
   "property": "C89",
   "status": "proved",
   "theorems": [
    "DLB.C89_mayer",
    "DLB.C89_cv_positive",
    "DLB.C89_from_density"
   ],
   "note": ""
  },
  {
   "property": "C90",
   "status": "proved",
   "theorems": [
    "DLB.C90_matrix_vector_exact",
    "DLB.C90_matrix_vector"
   ],
   "note": ""
  },
  {
   "property": "C91",
   "status": "proved",
   "theorems": [
    "DLB.C91_gri30_species_by_temperature",
    "DLB.C91_gri30_domain"
   ],
   "note": "The model of eval_jacob of gri30 leaves out the statements on which the temperature column does not depend; the generator checks that what is left out assigns nothing that is kept."
  },
  {
   "property": "C92",
   "status": "proved",
   "theorems": [
    "DLB.C92_yao_species_by_temperature",
    "DLB.C92_yao_domain"
   ],
   "note": "The model of eval_jacob of yao leaves out the same statements as that of gri30 (C91)."
  },
  {
   "property": "C93",
   "status": "proved",
   "theorems": [
    "DLB.C93_yao_temperature_by_temperature"
   ],
   "note": "Same model of eval_jacob of yao as C92."
  },
  {
   "property": "C94",
   "status": "partial",
   "theorems": [
    "DLB.C94_gri30_temperature_by_temperature_partial",
    "DLB.C94_gri30_not_the_derivative"
   ],
   "note": "The full claim is false of the code: C94_gri30_not_the_derivative has a state at which the entry is off by more than a hundredth of the sizes of the terms. C94_gri30_temperature_by_temperature_partial says what the entry is instead."
  },
  {
   "property": "C95",
   "status": "proved",
   "theorems": [
    "DLB.C95_full_plan_levels_with_rounding",
    "DLB.C95_full_plan_levels_in_doubles"
   ],
   "note": "Overflow is not modelled. C13 in exact arithmetic."
  },
  {
   "property": "C96",
   "status": "proved",
   "theorems": [
    "DLB.C96_kept_amounts_with_rounding",
    "DLB.C96_only_overloaded_send_with_rounding"
   ],
   "note": "Overflow is not modelled. C14 and C15 in exact arithmetic."
  },
  {
   "property": "C97",
   "status": "proved",
   "theorems": [
    "DLB.C97_work_bounded_with_rounding",
    "DLB.C97_makespan_with_rounding"
   ],
   "note": "Overflow is not modelled. C16 in exact arithmetic."
  },
  {
   "property": "C98",
   "status": "proved",
   "theorems": [
    "DLB.C98_equal_loads_no_traffic_with_rounding"
   ],
   "note": "Overflow is not modelled. C17 in exact arithmetic."
  },
  {
   "property": "C99",
   "status": "proved",
   "theorems": [
    "DLB.C99_vanishing_load_assertion_with_rounding",
    "DLB.C99_vanishing_load_assertion_in_doubles"
   ],
   "note": "Overflow is not modelled. C12 in exact arithmetic."
  },
  {
   "property": "C100",
   "status": "proved",
   "theorems": [
    "DLB.C100_ends_at_the_end_with_rounding",
    "DLB.C100_returns_with_progress_with_rounding",
    "DLB.C100_ends_at_the_end_in_doubles"
   ],
   "note": "Overflow is not modelled. C41 in exact arithmetic. The interval starts at zero, as in all calls of the chemistry models."
  },
  {
   "property": "C101",
   "status": "proved",
   "theorems": [
    "DLB.C101_mass_fractions_sum_to_one_with_rounding"
   ],
   "note": "Overflow is not modelled. C36 in exact arithmetic."
  },
  {
   "property": "C102",
   "status": "proved",
   "theorems": [
    "DLB.C102_rates_sum_to_zero_with_rounding"
   ],
   "note": "Overflow is not modelled. C74 in exact arithmetic."
  },
  {
   "property": "C103",
   "status": "proved",
   "theorems": [
    "DLB.C103_zero_in_oxidizer_one_in_fuel_with_rounding",
    "DLB.C103_inert_species_with_rounding"
   ],
   "note": "Overflow is not modelled. C32 and C33 in exact arithmetic."
  },
  {
   "property": "C104",
   "status": "proved",
   "theorems": [
    "DLB.C104_written_streams_are_accepted",
    "DLB.C104_written_streams_are_accepted_in_doubles",
    "DLB.C104_exact_stream_of_many_species_is_refused"
   ],
   "note": "C104_exact_stream_of_many_species_is_refused shows why the number of species is limited (finding 17 of DESIGN.md)."
  },
  {
   "property": "C105",
   "status": "proved",
   "theorems": [
    "DLB.C105_remaining_imbalance_with_rounding",
    "DLB.C105_remaining_imbalance_in_doubles"
   ],
   "note": "Overflow is not modelled. C19 in exact arithmetic."
  },
  {
   "property": "C106",
   "status": "proved",
   "theorems": [
    "DLB.C106_decomposition_does_not_change_answer",
    "DLB.C106_runs_agree",
    "DLB.C106_runs_agree_pyJac",
    "DLB.C106_smallest_returned_step",
    "DLB.C106_mapping_depends_on_decomposition"
   ],
   "note": "Mapping off. C106_mapping_depends_on_decomposition shows that it fails with mapping on (finding 19 of DESIGN.md)."
  },
  {
   "property": "C107",
   "status": "proved",
   "theorems": [
    "DLB.C107_restart",
    "DLB.C107_restart_on_other_ranks",
    "DLB.C107_restart_pyJac",
    "DLB.C107_time_steps_are_needed"
   ],
   "note": "Whether OpenFOAM reads the chemical time steps at a restart is outside the repository; C107_time_steps_are_needed shows that they matter (finding 20 of DESIGN.md)."
  },
  {
   "property": "C108",
   "status": "proved",
   "theorems": [
    "DLB.C108_survivors_have_the_right_results",
    "DLB.C108_no_rank_finishes_alone",
    "DLB.C108_failed_step_is_finished_nowhere",
    "DLB.C108_without_balancing_others_finish"
   ],
   "note": "A crashed rank stops and contributes to no further collective operation; MPI aborting the other ranks is a case of this (they crash too). C108_without_balancing_others_finish shows that all or nothing needs the balancer (finding 21 of DESIGN.md)."
  },
  {
   "property": "C109",
   "status": "proved",
   "theorems": [
    "DLB.C109_same_reactions",
    "DLB.C109_forward_rates",
    "DLB.C109_rate_coefficients",
    "DLB.C109_poles",
    "DLB.C109_not_equal"
   ],
   "note": "Forward rates, over the reals. Reverse rates are not compared: OpenFOAM's equilibrium constants are outside the repository and thermo.foam has other polynomials than chem.cti. C109_not_equal shows that the difference is real (finding 22 of DESIGN.md)."
  },
  {
   "property": "C110",
   "status": "proved",
   "theorems": [
    "DLB.C110_depends_on_elements_only",
    "DLB.C110_share_of_fuel",
    "DLB.C110_reactions_keep_mixture_fraction"
   ],
   "note": "Exact arithmetic. The hypotheses on the linear solver and the Jacobian are those of C72."
  },
  {
   "property": "C111",
   "status": "proved",
   "theorems": [
    "DLB.C111_settings_are_accepted",
    "DLB.C111_blends",
    "DLB.C111_candidates_have_oxygen",
    "DLB.C111_a_reactive_mixture_is_mapped"
   ],
   "note": "Exact arithmetic. C111_a_reactive_mixture_is_mapped shows the limit of the two-stream mixture fraction (finding 23 of DESIGN.md)."
  },
  {
   "property": "C112",
   "status": "proved",
   "theorems": [
    "DLB.C112_gibbs_energy",
    "DLB.C112_entropy",
    "DLB.C112_drm19",
    "DLB.C112_irreversible"
   ],
   "note": "Over the reals. That the total entropy production of gri30 or yao can be negative is not shown, only that single irreversible reactions contribute negatively (C112_irreversible)."
  },
  {
   "property": "C113",
   "status": "proved",
   "theorems": [
    "DLB.C113_work_near_the_mean",
    "DLB.C113_near_the_best_distribution",
    "DLB.C113_bound_is_attained"
   ],
   "note": "Exact arithmetic. C113_bound_is_attained shows what the filter of getOperations costs with many ranks (finding 24 of DESIGN.md)."
  },
  {
   "property": "C114",
   "status": "proved",
   "theorems": [
    "DLB.C114_work_near_the_mean_with_rounding",
    "DLB.C114_work_near_the_mean_in_doubles"
   ],
   "note": "Overflow is not modelled. C113 in exact arithmetic."
  },
  {
   "property": "C115",
   "status": "proved",
   "theorems": [
    "DLB.C115_error_of_the_integration",
    "DLB.C115_integration_converges",
    "DLB.C115_mean_rate_of_change"
   ],
   "note": "Exact arithmetic over the reals. The size of the steps is a hypothesis: the stepper chooses them by an error estimate (C59), which is not a bound of the true error. acceptedSteps lists the steps of a run."
  },
  {
   "property": "C116",
   "status": "proved",
   "theorems": [
    "DLB.C116_second_order"
   ],
   "note": "As C115. Higher orders (k + 1 with k rows, for smoother equations) are not shown."
  },
  {
   "property": "C117",
   "status": "proved",
   "theorems": [
    "DLB.C117_rates_of_a_cell",
    "DLB.C117_reaction_rates"
   ],
   "note": "Exact arithmetic over the reals. The hypothesis StepsWithin excludes integrations past the end of the time step (see C61) and unbounded Jacobians; acceptedSteps_jacobian says that all matrices are Jacobians of the library."
  },
  {
   "property": "C118",
   "status": "proved",
   "theorems": [
    "DLB.C118_inexact_equations",
    "DLB.C118_cell_follows_the_reactor",
    "DLB.C118_reaction_rates"
   ],
   "note": "Exact arithmetic over the reals. Steps and Jacobians as in C117. That the assumed neighbourhood of the solution exists is C119."
  },
  {
   "property": "C119",
   "status": "proved",
   "theorems": [
    "DLB.C119_reactor_has_a_solution",
    "DLB.C119_solution_unique",
    "DLB.C119_cells_follow_the_reactor",
    "DLB.C119_reaction_rates"
   ],
   "note": "Exact arithmetic over the reals. Steps and Jacobians as in C117; the constants are not explicit (they come from the local Lipschitz continuity of the rates), and b may be short."
  },
  {
   "property": "C120",
   "status": "proved",
   "theorems": [
    "DLB.C120_enthalpy",
    "DLB.C120_atoms",
    "DLB.C120_entropy",
    "DLB.C120_equilibrium"
   ],
   "note": "Exact arithmetic over the reals. Steps and Jacobians as in C117; that there are such integrations is C121. Nothing is stated about the entropy with irreversible reactions."
  },
  {
   "property": "C121",
   "status": "proved",
   "theorems": [
    "DLB.C121_one_step",
    "DLB.C121_cell_follows_the_reactor",
    "DLB.C121_balances",
    "DLB.C121_reaction_rates"
   ],
   "note": "Exact arithmetic over the reals. No assumption on the steps is left. The time b is not explicit and may be short. Shorter initial steps: C123."
  },
  {
   "property": "C122",
   "status": "proved",
   "theorems": [
    "DLB.C122_slice",
    "DLB.C122_block",
    "DLB.C122_remaining",
    "DLB.C122_elements",
    "DLB.C122_list_elements"
   ],
   "note": "The accesses of the model are checked, so that theorems saying that a function returns exclude out-of-range accesses. The accesses in the code are those of an optimised build, where out-of-range arguments are not checked."
  },
  {
   "property": "C123",
   "status": "proved",
   "theorems": [
    "DLB.C123_steps_are_accepted_at_once",
    "DLB.C123_cell_follows_the_reactor",
    "DLB.C123_balances",
    "DLB.C123_reaction_rates"
   ],
   "note": "Exact arithmetic over the reals. The time b is not explicit and may be short. The Jacobian routine has to be bounded near the state (JacobianBoundedNear)."
  },
  {
   "property": "C124",
   "status": "proved",
   "theorems": [
    "DLB.C124_returns",
    "DLB.C124_short_time_steps_succeed"
   ],
   "note": "C124_returns holds in any arithmetic in which x - x is not above SMALL; the rest in exact arithmetic over the reals. The time b is not explicit; should it be below SMALL = 10^-15 s, the statement on the rates is empty, since the model does not integrate over such times."
  },
  {
   "property": "C125",
   "status": "proved",
   "theorems": [
    "DLB.C125_jacobian_is_bounded",
    "DLB.C125_cell_follows_the_reactor",
    "DLB.C125_time_steps_succeed"
   ],
   "note": "Exact arithmetic over the reals. The time b is not explicit and may be short. Of the other two mechanisms only the temperature columns of the Jacobians are compared with derivatives, so that boundedness stays a hypothesis for them (C123, C124)."
  },
  {
   "property": "C126",
   "status": "proved",
   "theorems": [
    "DLB.C126_mixture_fraction_is_bilgers_with_rounding",
    "DLB.C126_mapped_cells_with_rounding",
    "DLB.C126_mixture_fraction_in_doubles"
   ],
   "note": "Overflow is not modelled; underflow is. Bilger's mixture fraction is that of the floating-point inputs; how these differ from the numbers as written is not part of the bound."
  },
  {
   "property": "C127",
   "status": "proved",
   "theorems": [
    "DLB.C127_step_does_not_amplify",
    "DLB.C127_relaxing_combinations_decay",
    "DLB.C127_linear_systems"
   ],
   "note": "Exact arithmetic. The linear solver has to satisfy the combination of the equations (SolvesCombination); it does if it solves regular systems and the systems are regular. Modes with complex eigenvalues are not covered."
  },
  {
   "property": "C128",
   "status": "proved",
   "theorems": [
    "DLB.C128_order_of_a_step",
    "DLB.C128_error_of_relaxing_combinations",
    "DLB.C128_linear_systems",
    "DLB.C128_order_for_linear_systems"
   ],
   "note": "Exact arithmetic over the reals. The hypotheses on the combination and on the linear solver are those of C127. Over whole integrations, modes with complex eigenvalues are covered to second order by C116."
  },
  {
   "property": "C129",
   "status": "proved",
   "theorems": [
    "DLB.C129_log_columns",
    "DLB.C129_files_line_up"
   ],
   "note": "Times are exact; calls of the clock take no time themselves. How the stream writes numbers is a parameter; it has to write something without white space."
  },
  {
   "property": "C130",
   "status": "proved",
   "theorems": [
    "DLB.C130_printed_state"
   ],
   "note": "The words between the printed numbers are left out of the model."
  },
  {
   "property": "C131",
   "status": "proved",
   "theorems": [
    "DLB.C131_fractions",
    "DLB.C131_sums",
    "DLB.C131_verdict"
   ],
   "note": "Exact arithmetic. What OpenFOAM's thermodynamics returns is a parameter, as is the mechanism library of the test."
  },
  {
   "property": "C132",
   "status": "proved",
   "theorems": [
    "DLB.C132_inexact_equations",
    "DLB.C132_cells_follow_the_reactor",
    "DLB.C132_reaction_rates",
    "DLB.C132_shipped_library"
   ],
   "note": "Exact arithmetic over the reals. b, H0 and K are not explicit. Where a species is absent the code clips negative mass fractions, so that its right-hand side is not differentiable; there first order is proved (C119). Jacobians other than those of the drm19 library have to be bounded."
  },
  {
   "property": "C133",
   "status": "partial",
   "theorems": [
    "DLB.C133_reports_partial",
    "DLB.C133_case_restored",
    "DLB.C133_validation_not_checked",
    "DLB.C133_validation_report_wrong",
    "DLB.C133_mismatch_not_told_apart",
    "DLB.C133_unit_tests",
    "DLB.C133_failures_not_noticed"
   ],
   "note": "False of the code as stated; the negations are proved (C133_validation_report_wrong, C133_mismatch_not_told_apart, C133_failures_not_noticed). The restored case and the reports that are right are proved. Of the shell, the status of pipelines, redirections, cp, rm and if are modelled."
  },
  {
   "property": "C134",
   "status": "partial",
   "theorems": [
    "DLB.C134_library",
    "DLB.C134_generated_partial",
    "DLB.C134_generated_once",
    "DLB.C134_own_models_not_offered",
    "DLB.C134_generated_false"
   ],
   "note": "False of the code for models of the user; the negation is proved (C134_generated_false). Run-time selection itself and the lists of thermodynamics are OpenFOAM's; that a class is chosen by its TypeName is taken from there. Names are identifiers."
  },
  {
   "property": "C135",
   "status": "proved",
   "theorems": [
    "DLB.C135_absolute_enthalpy",
    "DLB.C135_temperature"
   ],
   "note": "Exact arithmetic over the reals; b, H0, r0 and K are not explicit. The enthalpies of the species are those of chem.cti for the flow too; how far those of thermo.foam are from them is C79. Of OpenFOAM, that the flow finds a temperature with the given enthalpy is taken as given."
  },
  {
   "property": "C136",
   "status": "proved",
   "theorems": [
    "DLB.C136_flow_follows_the_reactor",
    "DLB.C136_time_steps_follow_the_reactor",
    "DLB.C136_solutions_inside_the_domain",
    "DLB.C136_simulation_runs",
    "DLB.C136_simulation_follows_the_reactors",
    "DLB.C136_simulation_with_drm19",
    "DLB.C136_simulations_exist"
   ],
   "note": "Exact arithmetic over the reals; H0, rho, K and the largest time step are not explicit. The flow has no transport: its equations are those of the validation test. The new temperature is assumed to be within some distance of the old one (there is exactly one such temperature, C135). Reference mapping is off for the cell."
  },
  {
   "property": "C137",
   "status": "proved",
   "theorems": [
    "DLB.C137_time_steps_follow_the_reactor",
    "DLB.C137_flow_follows_the_reactor",
    "DLB.C137_simulation_follows_the_reactors",
    "DLB.C137_simulation_runs"
   ],
   "note": "Exact arithmetic over the reals; b, H0, rho and K are not explicit. The flow has no transport: its equations are those of the validation test. Reference mapping is off for the cell. All species are assumed to be present along the solution: at absent species the rates are not smooth to second order (see C132)."
  },
  {
   "property": "C138",
   "status": "proved",
   "theorems": [
    "DLB.C138_cells_keep_mass_pressure_and_enthalpy",
    "DLB.C138_integrated_cells_are_not_negative",
    "DLB.C138_no_element_is_lost",
    "DLB.C138_mapped_cells_can_become_negative"
   ],
   "note": "Exact arithmetic. The flow has no transport: its equations are those of the validation test. The last species can become negative (C37), and so can every species of a mapped cell, which takes up the rates of another cell (C138_mapped_cells_can_become_negative)."
  },
  {
   "property": "C139",
   "status": "proved",
   "theorems": [
    "DLB.C139_settings_are_those_of_the_dictionary",
    "DLB.C139_unknown_integrators_stop_the_run",
    "DLB.C139_number_of_steps_is_respected",
    "DLB.C139_dictionary_determines_the_results",
    "DLB.C139_shipped_dictionaries"
   ],
   "note": "Exact arithmetic. The integrators of OpenFOAM are names only. Entries of the wrong type, at which OpenFOAM stops while reading, are not modelled. A label has 32 bits; a number of steps outside of its range is undefined behaviour, and the statements about it say so."
  },
  {
   "property": "C140",
   "status": "proved",
   "theorems": [
    "DLB.C140_settings_are_those_of_the_dictionary",
    "DLB.C140_missing_parts_stop_the_run",
    "DLB.C140_balancing_settings_change_no_result",
    "DLB.C140_tutorial",
    "DLB.C140_validation_case"
   ],
   "note": "Exact arithmetic. chemistry, initialChemicalTimeStep and maxChemicalTimeStep are read by OpenFOAM, as its documentation says. Results are the reaction rates, chemical time steps, the map of the references and the returned time step; CPU times and the log differ."
  },
  {
   "property": "C141",
   "status": "proved",
   "theorems": [
    "DLB.C141_case_follows_the_reactors",
    "DLB.C141_case_follows_the_reactors_to_second_order"
   ],
   "note": "Exact arithmetic over the reals; b, r0, rho and K are not explicit. The flow has no transport: its equations are those of the validation test. The time steps are at least s > 10^-15, where s is at most the initial and the greatest chemical time step of the dictionary, and its number of steps of length s is enough for a time step."
  },
  {
   "property": "C142",
   "status": "proved",
   "theorems": [
    "DLB.C142_mapped_cells_share_their_rates",
    "DLB.C142_rates_of_mapped_cells"
   ],
   "note": "Exact arithmetic (over the reals for the second part, where b, d and K are not explicit). The time steps of all cells are above the constant SMALL. With a temperature tolerance that is not positive no cell is mapped (C24)."
  }
 ]
}
