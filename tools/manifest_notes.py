# property -> (status or None for automatic, note)
NOTES = {
    "C24": (None, "For a tolerance <= 0 the negation is proved (C24_nonpositive_tolerance)."),
    "C28": (None, "C28_not_a_bound_for_mapped_cells: the minimum does not bound the mapped cells' time steps."),
    "C32": (None, "C32_equal_streams_are_accepted: the constructor does not reject equal streams."),
    "C37": (None, "The full claim is false of the code (C37_last_species_can_be_negative); proved for all species but "
            "the last, and for the last if the others do not sum to more than one."),
    "C46": (None, "For a zero relative tolerance the negation is proved (C46_zero_tolerance_remembers)."),
    "C48": (None, "Termination from admissible states, and proofs of non-termination outside of them."),
    "C83": (None, "Away from the pole of Troe's formula, where C divides by zero and gets infinity; C83_poles says where that is the case."),
    "C91": (None, "The model of eval_jacob of gri30 leaves out the statements on which the temperature column does not depend; the generator checks "
            "that what is left out assigns nothing that is kept."),
    "C92": (None, "The model of eval_jacob of yao leaves out the same statements as that of gri30 (C91)."),
    "C93": (None, "Same model of eval_jacob of yao as C92."),
    "C94": (None, "The full claim is false of the code: C94_gri30_not_the_derivative has a state at which the entry is off by more than a hundredth of the sizes of the terms. "
            "C94_gri30_temperature_by_temperature_partial says what the entry is instead."),
    "C95": (None, "Overflow is not modelled. C13 in exact arithmetic."),
    "C96": (None, "Overflow is not modelled. C14 and C15 in exact arithmetic."),
    "C97": (None, "Overflow is not modelled. C16 in exact arithmetic."),
    "C98": (None, "Overflow is not modelled. C17 in exact arithmetic."),
    "C99": (None, "Overflow is not modelled. C12 in exact arithmetic."),
    "C100": (None, "Overflow is not modelled. C41 in exact arithmetic. The interval starts at zero, as in all calls of the chemistry models."),
    "C101": (None, "Overflow is not modelled. C36 in exact arithmetic."),
    "C102": (None, "Overflow is not modelled. C74 in exact arithmetic."),
    "C103": (None, "Overflow is not modelled. C32 and C33 in exact arithmetic."),
    "C104": (None, "C104_exact_stream_of_many_species_is_refused shows why the number of species is limited (finding 17 of DESIGN.md)."),
    "C105": (None, "Overflow is not modelled. C19 in exact arithmetic."),
    "C106": (None, "Mapping off. C106_mapping_depends_on_decomposition shows that it fails with mapping on (finding 19 of DESIGN.md)."),
    "C107": (None, "Whether OpenFOAM reads the chemical time steps at a restart is outside the repository; C107_time_steps_are_needed shows that they matter (finding 20 of DESIGN.md)."),
    "C108": (None, "A crashed rank stops and contributes to no further collective operation; MPI aborting the other ranks is a case of this (they crash too). C108_without_balancing_others_finish shows that all or nothing needs the balancer (finding 21 of DESIGN.md)."),
    "C109": (None, "Forward rates, over the reals. Reverse rates are not compared: OpenFOAM's equilibrium constants are outside the repository and thermo.foam has other polynomials than chem.cti. C109_not_equal shows that the difference is real (finding 22 of DESIGN.md)."),
    "C110": (None, "Exact arithmetic. The hypotheses on the linear solver and the Jacobian are those of C72."),
    "C111": (None, "Exact arithmetic. C111_a_reactive_mixture_is_mapped shows the limit of the two-stream mixture fraction (finding 23 of DESIGN.md)."),
    "C112": (None, "Over the reals. That the total entropy production of gri30 or yao can be negative is not shown, only that single irreversible reactions contribute negatively (C112_irreversible)."),
    "C113": (None, "Exact arithmetic. C113_bound_is_attained shows what the filter of getOperations costs with many ranks (finding 24 of DESIGN.md)."),
    "C114": (None, "Overflow is not modelled. C113 in exact arithmetic."),
    "C115": (None, "Exact arithmetic over the reals. The size of the steps is a hypothesis: the stepper chooses them by an error estimate (C59), which is not a bound of the true error. acceptedSteps lists the steps of a run."),
    "C116": (None, "As C115. Higher orders (k + 1 with k rows, for smoother equations) are not shown."),
    "C117": (None, "Exact arithmetic over the reals. The hypothesis StepsWithin excludes integrations past the end of the time step (see C61) and unbounded Jacobians; acceptedSteps_jacobian says that all matrices are Jacobians of the library."),
    "C118": (None, "Exact arithmetic over the reals. Steps and Jacobians as in C117. That the assumed neighbourhood of the solution exists is C119."),
    "C119": (None, "Exact arithmetic over the reals. Steps and Jacobians as in C117; the constants are not explicit (they come from the local Lipschitz continuity of the rates), and b may be short."),
    "C120": (None, "Exact arithmetic over the reals. Steps and Jacobians as in C117; that there are such integrations is C121. Nothing is stated about the entropy with irreversible reactions."),
    "C121": (None, "Exact arithmetic over the reals. No assumption on the steps is left. The time b is not explicit and may be short. Shorter initial steps: C123."),
    "C122": (None, "The accesses of the model are checked, so that theorems saying that a function returns exclude out-of-range accesses. The accesses in the code are those of an optimised build, where out-of-range arguments are not checked."),
    "C123": (None, "Exact arithmetic over the reals. The time b is not explicit and may be short. The Jacobian routine has to be bounded near the state (JacobianBoundedNear)."),
    "C124": (None, "C124_returns holds in any arithmetic in which x - x is not above SMALL; the rest in exact arithmetic over the reals. The time b is not explicit; should it be below SMALL = 10^-15 s, the statement on the rates is empty, since the model does not integrate over such times."),
    "C125": (None, "Exact arithmetic over the reals. The time b is not explicit and may be short. Of the other two mechanisms only the temperature columns of the Jacobians are compared with derivatives, so that boundedness stays a hypothesis for them (C123, C124)."),
    "C126": (None, "Overflow is not modelled; underflow is. Bilger's mixture fraction is that of the floating-point inputs; how these differ from the numbers as written is not part of the bound."),
    "C127": (None, "Exact arithmetic. The linear solver has to satisfy the combination of the equations (SolvesCombination); it does if it solves regular systems and the systems are regular. Modes with complex eigenvalues are not covered."),
    "C128": (None, "Exact arithmetic over the reals. The hypotheses on the combination and on the linear solver are those of C127. Over whole integrations, modes with complex eigenvalues are covered to second order by C116."),
    "C129": (None, "Times are exact; calls of the clock take no time themselves. How the stream writes numbers is a parameter; it has to write something without white space."),
    "C130": (None, "The words between the printed numbers are left out of the model."),
    "C131": (None, "Exact arithmetic. What OpenFOAM's thermodynamics returns is a parameter, as is the mechanism library of the test."),
    "C132": (None, "Exact arithmetic over the reals. b, H0 and K are not explicit. Where a species is absent the code clips negative mass fractions, so that its right-hand side is not differentiable; there first order is proved (C119). Jacobians other than those of the drm19 library have to be bounded."),
    "C133": (None, "False of the code as stated; the negations are proved (C133_validation_report_wrong, C133_mismatch_not_told_apart, C133_failures_not_noticed). The restored case and the reports that are right are proved. Of the shell, the status of pipelines, redirections, cp, rm and if are modelled."),
    "C134": (None, "False of the code for models of the user; the negation is proved (C134_generated_false). Run-time selection itself and the lists of thermodynamics are OpenFOAM's; that a class is chosen by its TypeName is taken from there. Names are identifiers."),
    "C135": (None, "Exact arithmetic over the reals; b, H0, r0 and K are not explicit. The enthalpies of the species are those of chem.cti for the flow too; how far those of thermo.foam are from them is C79. Of OpenFOAM, that the flow finds a temperature with the given enthalpy is taken as given."),
    "C136": (None, "Exact arithmetic over the reals; H0, rho, K and the largest time step are not explicit. The flow has no transport: its equations are those of the validation test. The new temperature is assumed to be within some distance of the old one (there is exactly one such temperature, C135). Reference mapping is off for the cell."),
    "C137": (None, "Exact arithmetic over the reals; b, H0, rho and K are not explicit. The flow has no transport: its equations are those of the validation test. Reference mapping is off for the cell. All species are assumed to be present along the solution: at absent species the rates are not smooth to second order (see C132)."),
    "C138": (None, "Exact arithmetic. The flow has no transport: its equations are those of the validation test. The last species can become negative (C37), and so can every species of a mapped cell, which takes up the rates of another cell (C138_mapped_cells_can_become_negative)."),
    "C139": (None, "Exact arithmetic. The integrators of OpenFOAM are names only. Entries of the wrong type, at which OpenFOAM stops while reading, are not modelled. A label has 32 bits; a number of steps outside of its range is undefined behaviour, and the statements about it say so."),
    "C140": (None, "Exact arithmetic. chemistry, initialChemicalTimeStep and maxChemicalTimeStep are read by OpenFOAM, as its documentation says. Results are the reaction rates, chemical time steps, the map of the references and the returned time step; CPU times and the log differ."),
    "C141": (None, "Exact arithmetic over the reals; b, r0, rho and K are not explicit. The flow has no transport: its equations are those of the validation test. The time steps are at least s > 10^-15, where s is at most the initial and the greatest chemical time step of the dictionary, and its number of steps of length s is enough for a time step."),
    "C142": (None, "Exact arithmetic (over the reals for the second part, where b, d and K are not explicit). The time steps of all cells are above the constant SMALL. With a temperature tolerance that is not positive no cell is mapped (C24)."),
}
