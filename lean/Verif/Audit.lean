import Verif.Props.Access
import Verif.Props.Balancer
import Verif.Props.BoundedJacobian
import Verif.Props.CaseDict
import Verif.Props.CaseRun
import Verif.Props.CellRates
import Verif.Props.ConservedScalar
import Verif.Props.Crash
import Verif.Props.Decomposition
import Verif.Props.DriverHistory
import Verif.Props.Evenness
import Verif.Props.FlowRun
import Verif.Props.FlowTemperature
import Verif.Props.FullStack
import Verif.Props.FullStackChemistry
import Verif.Props.Jacobian
import Verif.Props.JacobianGri30
import Verif.Props.JacobianGri30First
import Verif.Props.JacobianYao
import Verif.Props.Kinetics
import Verif.Props.Levels
import Verif.Props.LibraryMore
import Verif.Props.Log
import Verif.Props.ManySteps
import Verif.Props.ManyTimeSteps
import Verif.Props.MappedCells
import Verif.Props.Mechanisms
import Verif.Props.MixtureFraction
import Verif.Props.Mpi
import Verif.Props.OdeSelection
import Verif.Props.OdeSolver
import Verif.Props.OwnFields
import Verif.Props.PyJac
import Verif.Props.RateCoefficients
import Verif.Props.ReactorBalance
import Verif.Props.ReactorConvergence
import Verif.Props.ReactorLocal
import Verif.Props.ReactorModel
import Verif.Props.Registration
import Verif.Props.RelaxOrder
import Verif.Props.Rounded
import Verif.Props.RoundedBilger
import Verif.Props.RoundedChemistry
import Verif.Props.RoundedDriver
import Verif.Props.RoundedEvenness
import Verif.Props.RoundedImbalance
import Verif.Props.RoundedMixture
import Verif.Props.RunBalance
import Verif.Props.SecondLaw
import Verif.Props.SecondOrder
import Verif.Props.SecondOrderRun
import Verif.Props.Serial
import Verif.Props.Seulex
import Verif.Props.SeulexConvergence
import Verif.Props.SeulexIntegration
import Verif.Props.SeulexInvariants
import Verif.Props.SeulexJacobian
import Verif.Props.SeulexNumerics
import Verif.Props.SeulexTermination
import Verif.Props.SmallTimeStep
import Verif.Props.Stability
import Verif.Props.Step
import Verif.Props.TestScript
import Verif.Props.Thermo
import Verif.Props.Tutorial
import Verif.Props.Validation
import Verif.Props.WholeRun
import Verif.Props.WholeStep
import Lean.Elab.Command
import Lean.Util.CollectAxioms
/-
Generated by tools/gen_manifest.py.  The build fails if a property theorem depends on an axiom
other than propext, Classical.choice and Quot.sound; every axiom used is printed.
-/
open Lean Elab Command

/-- Fail unless all named theorems depend on the three standard axioms only. -/
elab "#audit " ids:ident* : command => do
  let mut used : Array Name := #[]
  for id in ids do
    let n ← liftCoreM <| realizeGlobalConstNoOverloadWithInfo id
    for a in (← liftCoreM <| collectAxioms n) do
      unless [``propext, ``Classical.choice, ``Quot.sound].contains a do
        throwErrorAt id "{n} depends on axiom {a}"
      unless used.contains a do used := used.push a
  logInfo m!"{ids.size} property theorems; axioms used: {used.toList}"

#audit
  DLB.C01_senders_and_receivers_agree
  DLB.C02_never_sender_and_receiver
  DLB.C02_classification
  DLB.C02_assertion_holds
  DLB.C03_peers_distinct_and_valid
  DLB.C04_planning_terminates
  DLB.C04_no_ranks_is_undefined
  DLB.C04_state_valid
  DLB.C04_validity_check
  DLB.C05_counts_partition_problems
  DLB.C05_states_partition_problems
  DLB.C06_every_problem_solved_exactly_once
  DLB.C07_solutions_come_home
  DLB.C08_balancing_does_not_change_answer
  DLB.C09_histories_agree
  DLB.C10_every_schedule
  DLB.C10_complete_schedules_agree
  DLB.C10_step_ends_if_cells_can_be_solved
  DLB.C100_ends_at_the_end_with_rounding
  DLB.C100_returns_with_progress_with_rounding
  DLB.C100_ends_at_the_end_in_doubles
  DLB.C101_mass_fractions_sum_to_one_with_rounding
  DLB.C102_rates_sum_to_zero_with_rounding
  DLB.C103_zero_in_oxidizer_one_in_fuel_with_rounding
  DLB.C103_inert_species_with_rounding
  DLB.C104_written_streams_are_accepted
  DLB.C104_written_streams_are_accepted_in_doubles
  DLB.C104_exact_stream_of_many_species_is_refused
  DLB.C105_remaining_imbalance_with_rounding
  DLB.C105_remaining_imbalance_in_doubles
  DLB.C106_decomposition_does_not_change_answer
  DLB.C106_runs_agree
  DLB.C106_runs_agree_pyJac
  DLB.C106_smallest_returned_step
  DLB.C106_mapping_depends_on_decomposition
  DLB.C107_restart
  DLB.C107_restart_on_other_ranks
  DLB.C107_restart_pyJac
  DLB.C107_time_steps_are_needed
  DLB.C108_survivors_have_the_right_results
  DLB.C108_no_rank_finishes_alone
  DLB.C108_failed_step_is_finished_nowhere
  DLB.C108_without_balancing_others_finish
  DLB.C109_same_reactions
  DLB.C109_forward_rates
  DLB.C109_rate_coefficients
  DLB.C109_poles
  DLB.C109_not_equal
  DLB.C11_transfer_fits_and_is_maximal
  DLB.C110_depends_on_elements_only
  DLB.C110_share_of_fuel
  DLB.C110_reactions_keep_mixture_fraction
  DLB.C111_settings_are_accepted
  DLB.C111_blends
  DLB.C111_candidates_have_oxygen
  DLB.C111_a_reactive_mixture_is_mapped
  DLB.C112_gibbs_energy
  DLB.C112_entropy
  DLB.C112_drm19
  DLB.C112_irreversible
  DLB.C113_work_near_the_mean
  DLB.C113_near_the_best_distribution
  DLB.C113_bound_is_attained
  DLB.C114_work_near_the_mean_with_rounding
  DLB.C114_work_near_the_mean_in_doubles
  DLB.C115_error_of_the_integration
  DLB.C115_integration_converges
  DLB.C115_mean_rate_of_change
  DLB.C116_second_order
  DLB.C117_rates_of_a_cell
  DLB.C117_reaction_rates
  DLB.C118_inexact_equations
  DLB.C118_cell_follows_the_reactor
  DLB.C118_reaction_rates
  DLB.C119_reactor_has_a_solution
  DLB.C119_solution_unique
  DLB.C119_cells_follow_the_reactor
  DLB.C119_reaction_rates
  DLB.C12_loop_conserves_total
  DLB.C12_operations_conserve_total
  DLB.C120_enthalpy
  DLB.C120_atoms
  DLB.C120_entropy
  DLB.C120_equilibrium
  DLB.C121_one_step
  DLB.C121_cell_follows_the_reactor
  DLB.C121_balances
  DLB.C121_reaction_rates
  DLB.C122_slice
  DLB.C122_block
  DLB.C122_remaining
  DLB.C122_elements
  DLB.C122_list_elements
  DLB.C123_steps_are_accepted_at_once
  DLB.C123_cell_follows_the_reactor
  DLB.C123_balances
  DLB.C123_reaction_rates
  DLB.C124_returns
  DLB.C124_short_time_steps_succeed
  DLB.C125_jacobian_is_bounded
  DLB.C125_cell_follows_the_reactor
  DLB.C125_time_steps_succeed
  DLB.C126_mixture_fraction_is_bilgers_with_rounding
  DLB.C126_mapped_cells_with_rounding
  DLB.C126_mixture_fraction_in_doubles
  DLB.C127_step_does_not_amplify
  DLB.C127_relaxing_combinations_decay
  DLB.C127_linear_systems
  DLB.C128_order_of_a_step
  DLB.C128_error_of_relaxing_combinations
  DLB.C128_linear_systems
  DLB.C128_order_for_linear_systems
  DLB.C129_log_columns
  DLB.C129_files_line_up
  DLB.C13_full_plan_levels
  DLB.C130_printed_state
  DLB.C131_fractions
  DLB.C131_sums
  DLB.C131_verdict
  DLB.C132_inexact_equations
  DLB.C132_cells_follow_the_reactor
  DLB.C132_reaction_rates
  DLB.C132_shipped_library
  DLB.C133_reports_partial
  DLB.C133_case_restored
  DLB.C133_validation_not_checked
  DLB.C133_validation_report_wrong
  DLB.C133_mismatch_not_told_apart
  DLB.C133_unit_tests
  DLB.C133_failures_not_noticed
  DLB.C134_library
  DLB.C134_generated_partial
  DLB.C134_generated_once
  DLB.C134_own_models_not_offered
  DLB.C134_generated_false
  DLB.C135_absolute_enthalpy
  DLB.C135_temperature
  DLB.C136_flow_follows_the_reactor
  DLB.C136_time_steps_follow_the_reactor
  DLB.C136_solutions_inside_the_domain
  DLB.C136_simulation_runs
  DLB.C136_simulation_follows_the_reactors
  DLB.C136_simulation_with_drm19
  DLB.C136_simulations_exist
  DLB.C137_time_steps_follow_the_reactor
  DLB.C137_flow_follows_the_reactor
  DLB.C137_simulation_follows_the_reactors
  DLB.C137_simulation_runs
  DLB.C138_cells_keep_mass_pressure_and_enthalpy
  DLB.C138_integrated_cells_are_not_negative
  DLB.C138_no_element_is_lost
  DLB.C138_mapped_cells_can_become_negative
  DLB.C139_settings_are_those_of_the_dictionary
  DLB.C139_unknown_integrators_stop_the_run
  DLB.C139_number_of_steps_is_respected
  DLB.C139_dictionary_determines_the_results
  DLB.C139_shipped_dictionaries
  DLB.C14_only_overloaded_send
  DLB.C140_settings_are_those_of_the_dictionary
  DLB.C140_missing_parts_stop_the_run
  DLB.C140_balancing_settings_change_no_result
  DLB.C140_tutorial
  DLB.C140_validation_case
  DLB.C141_case_follows_the_reactors
  DLB.C141_case_follows_the_reactors_to_second_order
  DLB.C142_mapped_cells_share_their_rates
  DLB.C142_rates_of_mapped_cells
  DLB.C15_never_past_the_mean
  DLB.C16_work_bounded
  DLB.C16_makespan_never_grows
  DLB.C17_equal_loads_no_traffic
  DLB.C17_equal_loads_keep_problems
  DLB.C17_serial_no_traffic
  DLB.C18_one_global_plan
  DLB.C19_remaining_imbalance
  DLB.C20_load_round_trips
  DLB.C20_problem_round_trips
  DLB.C20_solution_round_trips
  DLB.C20_list_round_trips
  DLB.C20_stream_round_trips
  DLB.C20_truncated_is_rejected
  DLB.C20_only_written_messages_are_accepted
  DLB.C21_computeLoad
  DLB.C21_min_mean_max
  DLB.C21_rankToLoadIdx
  DLB.C22_solved_or_mapped
  DLB.C23_only_eligible_mapped
  DLB.C24_refMap_tells_truth
  DLB.C24_positive_tolerance
  DLB.C24_nonpositive_tolerance
  DLB.C25_mapping_off
  DLB.C26_update_frame
  DLB.C27_every_cell_carries_rate_of_this_step
  DLB.C27_step_succeeds_iff
  DLB.C28_returned_step_is_minimum
  DLB.C28_uniform_at_most_twice
  DLB.C28_not_a_bound_for_mapped_cells
  DLB.C29_chemistry_off_no_communication
  DLB.C29_chemistry_off_inert
  DLB.C30_rate_is_mean_rate
  DLB.C30_steps_cover_time_step
  DLB.C30_terminates_with_progress
  DLB.C31_inert_zero_rate
  DLB.C31_mass_conserved
  DLB.C32_zero_in_oxidizer_one_in_fuel
  DLB.C32_equal_streams_are_accepted
  DLB.C33_affine
  DLB.C33_mixing
  DLB.C33_inert_species
  DLB.C34_bilger
  DLB.C35_setup_accepts_iff
  DLB.C35_mapper_construction
  DLB.C36_mass_fractions_sum_to_one
  DLB.C37_nonnegative_partial
  DLB.C37_last_species_can_be_negative
  DLB.C38_layout
  DLB.C38_round_trip
  DLB.C38_original_layout
  DLB.C39_right_hand_side_and_jacobian
  DLB.C40_pressure_is_constant
  DLB.C41_ends_exactly_at_the_end
  DLB.C41_otherwise_fatal
  DLB.C41_returns_with_progress
  DLB.C42_history
  DLB.C42_history_of_integration
  DLB.C42_untruncated_suggestion
  DLB.C42_single_step
  DLB.C43_scaled_maximum_norm
  DLB.C44_sizes
  DLB.C45_step_in_range
  DLB.C45_integration_in_range
  DLB.C46_integration_ignores_history
  DLB.C46_cells_do_not_influence_each_other
  DLB.C46_positive_tolerances
  DLB.C46_zero_tolerance_remembers
  DLB.C47_failed_attempt_halves_the_step
  DLB.C47_rejected_attempt
  DLB.C47_step_advances
  DLB.C48_step_never_returns
  DLB.C48_integration_never_returns
  DLB.C48_original_layout_never_returns
  DLB.C48_frozen_cell_never_returns
  DLB.C48_step_returns
  DLB.C48_integration_returns
  DLB.C48_integration_returns_real
  DLB.C49_accepted_step_is_extrapolation
  DLB.C49_polynomial_results
  DLB.C50_sub_steps_are_linearly_implicit_euler
  DLB.C51_step_sequence
  DLB.C52_elements_conserved
  DLB.C52_dydt_conserves_elements
  DLB.C53_mass_conserved
  DLB.C53_foam_weights
  DLB.C54_conversions
  DLB.C54_roundtrip
  DLB.C54_mean_weight
  DLB.C55_masks_inverse
  DLB.C55_species_order
  DLB.C56_heat_release
  DLB.C57_construction
  DLB.C58_jacobian_after_rejection
  DLB.C58_first_step_jacobian
  DLB.C58_jacobian_origin
  DLB.C59_accepted_error
  DLB.C60_steps_keep_their_direction
  DLB.C60_first_and_truncated_steps_do_not_grow
  DLB.C61_integration_is_chain_of_extrapolated_steps
  DLB.C61_end_of_integration
  DLB.C62_species_rates
  DLB.C63_mass_action
  DLB.C64_pressure_modification
  DLB.C65_concentrations
  DLB.C66_no_undefined_behaviour
  DLB.C67_reactor_equations
  DLB.C68_absent_species_not_consumed
  DLB.C69_solver_memory_has_no_effect
  DLB.C69_histories_agree
  DLB.C69_positive_tolerances
  DLB.C69_zero_tolerance_balancing_changes_answer
  DLB.C70_linear_invariants_are_kept
  DLB.C71_rest_state_is_kept
  DLB.C71_cell_at_rest
  DLB.C72_elements_of_a_cell
  DLB.C72_rates_conserve_elements
  DLB.C73_dormant_mixture
  DLB.C73_inert_gas
  DLB.C73_inert_cells_do_not_react
  DLB.C74_rates_sum_to_zero
  DLB.C75_nasa_polynomials
  DLB.C76_heat_capacity_positive
  DLB.C76_energy_balance
  DLB.C77_enthalpy_integrates_heat_capacity
  DLB.C78_no_significant_jumps
  DLB.C79_consistent_with_OpenFOAM
  DLB.C80_arrhenius
  DLB.C80_relative_error
  DLB.C81_equilibrium
  DLB.C81_relative_error
  DLB.C81_direction
  DLB.C82_falloff
  DLB.C83_species
  DLB.C83_temperature
  DLB.C83_poles
  DLB.C84_no_undefined_behaviour
  DLB.C84_kept_entries
  DLB.C84_buffer_must_be_initialised
  DLB.C85_species_by_temperature
  DLB.C85_domain
  DLB.C86_species_by_species
  DLB.C87_temperature_by_species
  DLB.C87_temperature_by_temperature
  DLB.C88_right_hand_side
  DLB.C88_jacobian
  DLB.C89_mayer
  DLB.C89_cv_positive
  DLB.C89_from_density
  DLB.C90_matrix_vector_exact
  DLB.C90_matrix_vector
  DLB.C91_gri30_species_by_temperature
  DLB.C91_gri30_domain
  DLB.C92_yao_species_by_temperature
  DLB.C92_yao_domain
  DLB.C93_yao_temperature_by_temperature
  DLB.C94_gri30_temperature_by_temperature_partial
  DLB.C94_gri30_not_the_derivative
  DLB.C95_full_plan_levels_with_rounding
  DLB.C95_full_plan_levels_in_doubles
  DLB.C96_kept_amounts_with_rounding
  DLB.C96_only_overloaded_send_with_rounding
  DLB.C97_work_bounded_with_rounding
  DLB.C97_makespan_with_rounding
  DLB.C98_equal_loads_no_traffic_with_rounding
  DLB.C99_vanishing_load_assertion_with_rounding
  DLB.C99_vanishing_load_assertion_in_doubles
