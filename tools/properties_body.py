# ---------------------------------------------------------------- planning
p("Senders and receivers agree",
  "After every rank has called updateState with the loads of the same time step, rank r lists rank s among its destinations exactly when rank s lists r among its sources, each such pair occurs exactly once on either side; hence every message sent by balance() is expected by its receiver and every expected message is sent.",
  "all numbers of ranks, all problem lists and measured CPU times on each rank, any arithmetic used for the loads, any outcome of the unstable sort of equal loads",
  "The unit tests look at one rank at a time with 1-4 literal load vectors; agreement is a relation between all ranks for every load vector, including ties and rounding.",
  LB+"LoadBalancer.C:updateState", LB+"LoadBalancer.C:getOperations", LB+"LoadBalancer.C:operationsToInfo")
p("A rank never sends and receives in the same balancing step",
  "In every balancer state produced by updateState either the destination list or the source list is empty; a rank with operations is classified as sender exactly when it is the origin of all of its operations.",
  "all numbers of ranks, all load vectors, any arithmetic",
  "The runtime assertion that checks it is compiled out in optimised builds and the tests exercise a handful of vectors.",
  LB+"LoadBalancer.C:getOperations", LB+"LoadBalancer.C:isSender", LB+"LoadBalancer.C:isReceiver", LB+"LoadBalancer.C:operationsToInfo")
p("Peers are distinct, valid and never the rank itself",
  "The destinations (and the sources) of every rank are pairwise distinct, each is an existing rank, and none is the rank itself.",
  "all numbers of ranks, all load vectors, any arithmetic",
  "Two sends to one peer would silently concatenate in one buffer; absence has to hold for all load vectors.",
  LB+"LoadBalancer.C:getOperations", LB+"LoadBalancerBase.H:sendRecv")
p("Planning terminates with at most n-1 transfers and touches only valid loads",
  "For n >= 1 ranks computing the operations always terminates after exactly n-1 pairings, never reads or writes outside of the load array, and so no rank has more than n-1 operations; for n = 0 the behaviour is undefined (and unreachable, there is always one rank).",
  "all load vectors of all lengths, any arithmetic (including rounded, NaN-like comparisons)",
  "Termination of the two-pointer loop under rounding cannot be tested exhaustively.",
  LB+"LoadBalancer.C:getOperations", LB+"LoadBalancerBase.C:validState")
p("Problem counts split the problem list without loss or overlap",
  "For a sender the per-destination problem counts have one entry per destination, their sum never exceeds the number of problems, nRemaining is the exact difference, and the blocks handed to the destinations followed by getRemaining() are exactly the original problem list in the original order. No slice reads outside of the list.",
  "all problem lists, all lists of transfer times, any arithmetic",
  "The tests check a few literal lists; slice arithmetic has to be right for all of them.",
  LB+"LoadBalancer.C:timesToProblemCounts", LB+"SendBuffer.H:operator[]", LB+"LoadBalancerBase.H:getRemaining", LB+"algorithms_DLB.H:count_while")
p("Every problem of every rank is solved exactly once",
  "In one balanced time step the multiset of problems solved over all ranks (own remaining ones plus received ones) equals the multiset of problems submitted over all ranks.",
  "all numbers of ranks, all problem lists, all CPU time histories, any arithmetic",
  "Needs all ranks together and all load vectors; the parallel test in the repository compares counts for random inputs on a fixed number of ranks.",
  LB+"LoadBalancerBase.H:balance", LB+"LoadBalancerBase.H:getRemaining", LBCM+":solve")
p("Solutions come home complete and in order",
  "After unbalance() and appending the rank's own solutions, the concatenation of the incoming solution lists on rank r is the list of solutions of r's own problems in r's original problem order: one solution per problem, with its cell id.",
  "all numbers of ranks, all problem lists, all CPU time histories",
  "Same as above: a relation between all ranks for all inputs.",
  LB+"LoadBalancerBase.H:unbalance", LBCM+":solve", LBCM+":solveBuffer")
p("Load balancing does not change the answer",
  "With the same thermodynamic state, the reaction rates, the chemical time steps, the reference map and the returned minimum time step of every rank are the same with load balancing active and inactive, whatever CPU times were measured before or during the step.",
  "all numbers of ranks, all fields, all clocks, all previous CPU times",
  "Equality must hold for every timing behaviour of the machine, which a test run samples once.",
  LBCM+":solve", LBCM+":updateReactionRates", LB+"LoadBalancer.C:updateState")
p("Histories of time steps are insensitive to balancing and timing",
  "Over any sequence of time steps two runs that start from the same fields and see the same flow states, but differ in balancer setting, in initial CPU times and in clocks, produce the same reaction rates, chemical time steps, reference maps and returned time steps after every step.",
  "all sequences of time steps, all numbers of ranks",
  "CPU times feed back from step to step; only an induction over the history covers it.",
  LBCM+":solve", LBCM+":getProblems", LBCM+":updateReactionRates")
p("Communication cannot deadlock and is schedule independent",
  "Under every interleaving of the ranks' sends, collective operations and receives, the balanced step always makes progress until every rank is done, never receives from a peer that has not sent, leaves no message unread, takes the same number of communication steps, and ends in the same state.",
  "all schedules, all numbers of ranks, all problem lists",
  "The set of schedules is unbounded; an MPI test run exercises one.",
  LB+"LoadBalancerBase.H:sendRecv", LB+"LoadBalancerBase.H:allGather", LBCM+":solve")
p("Transferred work fits the agreed amount and is maximal",
  "The measured CPU times of the problems put in the block for a destination accumulate to at most the agreed transfer time after every prefix, and the block is maximal: the block ends only at the end of the problem list or because the next problem would exceed the agreed time.",
  "all problem lists, all transfer times, any arithmetic",
  "Greedy prefix counting with a stateful predicate must be right for every list.",
  LB+"LoadBalancer.C:timesToProblemCounts", LB+"algorithms_DLB.H:count_while")
p("The plan conserves the total load",
  "Applying all planned operations (before the small ones are dropped) to the load vector conserves the total and therefore the mean; the debug assertion 'Vanishing load' never fires in exact arithmetic. Applying the operations that are kept conserves it too.",
  "all load vectors, exact arithmetic over any ordered field",
  "Holds for all real load vectors.",
  LB+"LoadBalancer.C:getOperations", LB+"LoadBalancerBase.C:getMean")
p("The full plan levels all loads",
  "Applying all planned operations brings every rank to the mean up to n times the comparison tolerance (1e-15 s).",
  "all load vectors, exact arithmetic over any ordered field",
  "The tests assert it on a few literal vectors and random ones.",
  LB+"LoadBalancer.C:getOperations")
p("Only overloaded ranks send and only underloaded ranks receive",
  "With non-negative loads, every kept operation goes from a rank whose load is above the mean to a rank whose load is below the mean, and its value is positive and larger than one per cent of the mean.",
  "all non-negative load vectors, exact arithmetic over any ordered field",
  "Must hold for all load vectors, including ones with ties and loads within the tolerance of the mean.",
  LB+"LoadBalancer.C:getOperations")
p("No rank gives away more than its surplus or is planned above the mean",
  "The kept operations of a sending rank sum to at most its surplus over the mean (up to the tolerance) and those of a receiving rank to at most its deficit (up to the tolerance), so that planned loads stay between the original minimum and the original maximum (up to the tolerance).",
  "all non-negative load vectors, exact arithmetic",
  "Must hold for all load vectors.",
  LB+"LoadBalancer.C:getOperations")
p("Measured work after balancing never exceeds the old maximum",
  "Counting the measured CPU times of the problems each rank really solves after balancing (own remaining problems plus guests), no rank ends with more than the larger of its original load and the mean (up to the tolerance): the predicted makespan never grows.",
  "all numbers of ranks, all problem lists with non-negative times, exact arithmetic",
  "Combines planning and slicing on all ranks for all inputs.",
  LB+"LoadBalancer.C:getOperations", LB+"LoadBalancer.C:timesToProblemCounts", LB+"LoadBalancerBase.H:balance")
p("Balanced or serial loads cause no traffic",
  "If all loads are equal (in particular all zero, as in the first time step), or if there is only one rank, no operation is planned and every rank keeps all its problems.",
  "all numbers of ranks, all equal load vectors, exact arithmetic (any arithmetic for one rank)",
  "Must hold for all n and all values.",
  LB+"LoadBalancer.C:getOperations", LB+"LoadBalancer.C:operationsToInfo")
p("All ranks compute restrictions of one plan",
  "The operations of rank r are exactly the operations, in order, of a single global plan (a function of the gathered loads only) in which r takes part.",
  "all load vectors, all ranks, any arithmetic",
  "A per-rank function of replicated data: agreement is needed for every input.",
  LB+"LoadBalancer.C:getOperations", LB+"LoadBalancerBase.H:allGather")
p("Remaining imbalance is bounded",
  "After the kept (larger than one per cent of the mean) operations every rank's planned load differs from the mean by at most one per cent of the mean per dropped operation plus the tolerance, so by at most (n-1)/100 of the mean plus n tolerances.",
  "all non-negative load vectors, exact arithmetic",
  "Quantitative guarantee for all load vectors.",
  LB+"LoadBalancer.C:getOperations")
p("Messages survive transmission",
  "Reading what was written restores a load, a chemistry problem, a chemistry solution and lists of those exactly, consuming exactly what was written, also when several of them follow each other in one stream. A stream that does not begin with such a message, for example because its end is missing, is refused with a fatal error and never taken for another value.",
  "all values, all list lengths, all streams",
  "Write and read functions are separate code; field order must agree for all values.",
  LB+"ChemistryLoad.H:operator<<", LB+"ChemistryProblem.H:operator<<", LB+"ChemistrySolution.H:operator<<")
p("Load statistics are correct",
  "computeLoad is the sum of the CPU times of the problems, tagged with the calling rank; getMin/getMax return a load that bounds all others and occurs in the list; getMean lies between them; rankToLoadIdx finds the first entry of that rank or throws exactly if there is none.",
  "all load lists, exact arithmetic for the mean",
  "Holds for all lists.",
  LB+"LoadBalancerBase.C:computeLoad", LB+"LoadBalancerBase.C:getMean", LB+"LoadBalancerBase.C:getMin", LB+"LoadBalancerBase.C:getMax", LB+"LoadBalancerBase.C:rankToLoadIdx")
# ------------------------------------------------------------ chemistry model
p("Every cell is either solved once or mapped",
  "In every step the problems handed to the balancer and the cells that got the reference solution partition the cells of the rank: each cell id occurs exactly once in the problem list if and only if it was not given the reference solution.",
  "all meshes, all fields, all mapper settings",
  "Must hold for all fields; tests use no mesh at all.",
  LBCM+":getProblems", LBCM+":map")
p("Only eligible cells are mapped",
  "A cell gets the reference solution only if mapping is active, its mixture fraction is below the tolerance and its temperature is within the temperature tolerance of the reference cell, which is the first cell with a small mixture fraction; conversely every such cell is mapped and none of them is solved again.",
  "all meshes, all fields, all mapper settings",
  "Must hold for all fields.",
  LBCM+":getProblems", LBCM+":map", RM+"mixtureFractionRefMapper.C:shouldMap", RM+"mixtureFractionRefMapper.C:temperatureWithinRange")
p("The reference map field tells the truth",
  "After a step refMap is 0 exactly for the reference cell, 1 exactly for the other mapped cells and 2 exactly for the cells solved individually, provided that the temperature tolerance is positive (otherwise the reference cell is solved twice and marked 2).",
  "all meshes, all fields, all mapper settings",
  "Must hold for all fields, including the boundary of the tolerance.",
  LBCM+":getProblems", LBCM+":map")
p("Mapping off means every cell is solved",
  "If reference mapping is inactive the problem list is one problem per cell in cell order, carrying this cell's composition, temperature, pressure, density, time steps and last CPU time.",
  "all meshes, all fields",
  "Must hold for all fields.",
  LBCM+":getProblems", RM+"mixtureFractionRefMapper.C:shouldMap")
p("Updating the rates touches exactly the solved cells",
  "Writing back a set of solutions changes reaction rates, chemical time step and CPU time exactly at the cells named in the solutions and sets them to the solution's values (time step capped by the maximum); all other cells keep their values.",
  "all solution buffers with distinct valid cell ids, all fields",
  "Frame property over all cells.",
  LBCM+":updateReactionRates", LBCM+":updateReactionRate")
p("After a step every cell carries a rate of this step",
  "After solve() on every rank, each cell's reaction rates are the solution of its own problem, or the solution of the reference problem if it was mapped; no stale value survives.",
  "all meshes, fields, mapper settings, numbers of ranks",
  "Combines partitioning, communication and write-back.",
  LBCM+":solve", LBCM+":getProblems", LBCM+":updateReactionRates")
p("Returned chemical time step is a lower bound",
  "solve() returns a value that is at most the chemical time step of every cell solved individually, is attained (or is 'great' if there is none), and for a uniform time step is at most twice the time step. Mapped cells are not taken into account, so it is not a lower bound for them.",
  "all meshes, fields, mapper settings",
  "Minimum over all cells of all fields.",
  LBCM+":updateReactionRates", LBCM+":solve")
p("Chemistry off is inert",
  "With chemistry switched off solve() changes no field, sends nothing, and returns 'great' (2*deltaT at most for a uniform step).",
  "all states",
  "Frame property.",
  LBCM+":solve")
p("Single-cell reaction rate is the mean rate over the step",
  "The reaction rate of a problem is (final - initial composition) * density / time step, so that initial composition + rate * time step / density restores the composition the integrator reached; the sub-steps used by the integrator add up to the time step up to the tolerance; the solution carries the problem's cell id and density and a chemical time step capped by the maximum.",
  "all problems, all integrators that make progress",
  "Holds for every integrator and every problem.",
  LBCM+":solveSingle")
p("Inert composition has zero rate and total mass is conserved",
  "If the integrator returns the composition unchanged the reaction rates are all zero; if it preserves the sum of mass fractions then the reaction rates of all species sum to zero.",
  "all problems, all integrators, exact arithmetic",
  "Holds for every integrator and problem.",
  LBCM+":solveSingle")
# ---------------------------------------------------------- mixture fraction
p("Mixture fraction is 0 in the oxidiser and 1 in the fuel",
  "If fuel and oxidiser have different Bilger coupling functions the mixture fraction of the oxidiser stream is 0, that of the fuel stream is 1; if they have equal coupling functions the result is undefined (division by zero).",
  "all mechanisms, all stream compositions",
  "For all compositions and mechanisms.",
  RM+"mixtureFraction.C:initialize", RM+"mixtureFraction.C:massFractionToMixtureFraction")
p("Mixture fraction is linear in mixing",
  "The mixture fraction of any affine combination of two compositions is the same combination of their mixture fractions; in particular mixing fuel and oxidiser with weights z and 1-z gives z, and adding species without C, H and O does not change it.",
  "all mechanisms and compositions, exact arithmetic",
  "For all compositions.",
  RM+"mixtureFraction.C:massFractionToMixtureFraction")
p("Mixture fraction is Bilger's definition",
  "The computed value equals (beta - beta_ox)/(beta_fuel - beta_ox) with beta = 2 Y_C/W_C + 0.5 Y_H/W_H - Y_O/W_O, where Y_e is the elemental mass fraction obtained from the species' element counts; the stoichiometric value is the mixture fraction at which beta is zero.",
  "all mechanisms and compositions, exact arithmetic",
  "Equality of two formulas for all inputs.",
  RM+"mixtureFraction.C:initialize", RM+"mixtureFraction.H")
p("Mixture fraction setup rejects ill-formed streams",
  "Setup accepts the fuel and oxidiser compositions only if they sum to one up to the tolerance; species not named count as zero; a stream whose mass fractions sum to anything else is a fatal error. The reference mapper is on exactly if its dictionary says so, with the mixture fraction and the tolerances of the dictionary or the default tolerances.",
  "all dictionaries",
  "For all inputs.",
  RM+"mixtureFraction.C:initialize")
# ---------------------------------------------------------------- ode_pyJac
p("Mass fractions sum to one after integration",
  "After the pyJac solver integrates a cell the mass fractions sum to exactly one (exact arithmetic), whatever the ODE integrator returned, and all but the last are non-negative.",
  "all integrators, all compositions with at least one species",
  "For all integrator results.",
  OP+":solve")
p("No species becomes negative",
  "After the pyJac solver integrates a cell every mass fraction is non-negative. (False for the last species when the others sum to more than one; true when they do not.)",
  "all integrators, all compositions",
  "For all integrator results.",
  OP+":solve")
p("pyJac state layout is consistent",
  "The state passed to the integrator is temperature, all but the last mass fraction, pressure; it is unpacked with the same layout: if the integrator changes nothing, temperature, pressure and the non-negative composition summing to one come back unchanged. Models with two more equations than species use the layout species, temperature, pressure in both directions.",
  "all compositions summing to one with non-negative entries",
  "For all states and species counts.",
  OP+":solve", PJ+":derivatives", PJ+":jacobian")
p("pyJac right hand side and Jacobian agree on layout",
  "The Jacobian handed to the integrator is the transpose of pyJac's column-major array embedded with a zero last row and column, and the derivative of pressure is zero; species are clipped at zero and the last one is the complement before pyJac is called.",
  "all states, all mechanisms",
  "For all indices and species counts.",
  PJ+":jacobian", PJ+":derivatives")
p("Pressure is constant during integration",
  "Integrating with the pyJac model leaves the pressure component exactly as it was, for every accepted and rejected step, given that the linear solver solves the system it is given.",
  "all states, all step histories",
  "Invariant over all steps.",
  PJ+":derivatives", PJ+":jacobian", SX+":solve", SX+":seul")
# ---------------------------------------------------------------- ODE driver
p("Integration ends exactly at the end or fails loudly",
  "The driver, with positive interval and positive initial step and any stepper that advances by a positive amount not more than requested, returns only with the independent variable at the end of the interval (never beyond it), after at most maxSteps steps; otherwise it raises a fatal error.",
  "all steppers meeting the contract, all intervals, exact arithmetic",
  "For all steppers and step histories.",
  OD+":solve")
p("The driver returns a usable step suggestion",
  "When the last step was truncated to hit the end, and it was not the only step, the suggested next step is the untruncated one. In every step the stepper is asked for the suggested step or for what is left of the interval, whichever is less, and is told whether it is the first step and whether a step has been truncated so far. The suggestion returned is the last one of the stepper, unless a step was truncated and it was not the only one: then it is the one before.",
  "all steppers meeting the contract, and the extrapolation method; all histories of steps",
  "For all step histories.",
  OD+":solve")
p("Step error norm is the scaled maximum norm",
  "normalizeError returns max_i |err_i| / (absTol_i + relTol_i max(|y0_i|,|y_i|)): it is below one exactly if every component is within its tolerance, and zero exactly if the error is zero.",
  "all vectors, positive tolerances, exact arithmetic",
  "For all vectors.",
  OD+":normalizeError")
p("Only active equations are touched after resizing",
  "After resize() to fewer equations all work fields have the new size; solve never reads or writes entries beyond it; resizing to more than the maximum is fatal.",
  "all sizes, all histories of resizes",
  "For all histories.",
  OD+":resize", SX+":resize", "src/ODE_DLB/ODESolvers/ODESolver/ODESolverI.H")
# ---------------------------------------------------------------- seulex
p("Extrapolation order stays in range",
  "In the extrapolation stepper the target column stays between 1 and 11 and all table, sequence and work-estimate accesses are within bounds in every step of every integration.",
  "all right hand sides, tolerances, step histories, any arithmetic",
  "Invariant over all histories.",
  SX+":solve", SX+":seulex_LAPACK")
p("Cell result does not depend on previously solved cells",
  "The result of integrating a cell (first step) does not depend on what the stepper's mutable scratch data contain from previous cells, provided the relative tolerances are positive; with a zero relative tolerance it can.",
  "all previous histories, all problems",
  "Quantifies over everything solved before on this rank, which load balancing changes.",
  SX+":solve", SX+":seul", OD+":solve")
p("A step either succeeds or shrinks",
  "Whenever an attempted extrapolation step is rejected for divergence or non-physical temperature the next attempt uses half of the step; every accepted step advances x by exactly the step used.",
  "all right hand sides and states",
  "For all histories.",
  SX+":solve", SX+":seul")
p("Stepper terminates on physically admissible input",
  "A step that starts at a temperature strictly between 200 and 5000 K, with positive error scales and a right-hand side that is bounded nearby, returns after finitely many attempts, whatever the work arrays, the step and the Jacobian are; an integration therefore ends unless it arrives at a temperature outside that range. (The unrestricted claim is false: from a state whose temperature is outside of 200..5000 K and does not move, every attempt fails and the loop never ends.)",
  "all right-hand sides, Jacobians, states, step sizes, histories; exact arithmetic",
  "The loop over attempts has no bound; both answers need a proof about all attempts.",
  SX+":seul", SX+":solve")
p("Extrapolation is polynomial extrapolation to zero step",
  "The extrapolation of the table of sub-step results is exact whenever the results are a polynomial in the sub-step size of degree at most the column index: the limit value at step zero is obtained.",
  "all polynomial coefficients, all columns, exact arithmetic",
  "Algebraic identity for all columns and coefficients.",
  SX+":extrapolate", SX+":seulex_LAPACK")
p("Sub-step is a linearly implicit Euler step",
  "Given a linear solver that solves the system, one sub-step of the stepper solves (I/h - J) dy = f(x+h, y) with h = step / number of sub-steps; the matrix is passed column-major.",
  "all Jacobians, right hand sides, dimensions",
  "For all dimensions and entries.",
  SX+":seul")
p("Step sequence is well formed",
  "The sub-step number sequence is 2, 3, 4, 6, 8, 12, ... strictly increasing, its extrapolation coefficients have non-zero denominators and are positive, and the work estimates are strictly increasing.",
  "all rows of the table",
  "Whole table plus algebra.",
  SX+":seulex_LAPACK")
# ---------------------------------------------------------------- mechanisms
p("Mechanisms conserve every chemical element",
  "For each shipped pyJac mechanism the molar production rates weighted with the element counts of the species sum to zero for every element, whatever the forward, reverse and pressure-modification rates are.",
  "all rate values (all temperatures, pressures, compositions), all elements, each mechanism (drm19, gri30, yao)",
  "Identity in hundreds of independent rates.",
  ME+"*/lib/src/spec_rates.c:eval_spec_rates", ME+"*/chem.cti", ME+"*/foam/thermo.foam")
p("Mechanisms conserve mass",
  "For each shipped mechanism the mass production rates (molar rate times molecular weight computed from atomic weights) sum to zero; with the rounded weights in the code they sum to zero up to a relative error of 1e-15; the weights in the Foam input agree with them up to the same error.",
  "all rate values, each mechanism",
  "Identity in hundreds of independent rates.",
  ME+"*/lib/src/spec_rates.c:eval_spec_rates", ME+"*/lib/src/dydt.c:dydt")
p("Mass and mole fractions convert back and forth",
  "Converting mass to mole fractions and back (and vice versa) with the complement convention for the last species restores the composition.",
  "all compositions for which the mean weight does not vanish, each mechanism",
  "For all compositions.",
  ME+"*/lib/src/mass_mole.c:mass2mole", ME+"*/lib/src/mass_mole.c:mole2mass")
p("Species masks are inverse permutations",
  "apply_mask and apply_reverse_mask undo each other, apply_mask takes the species order of chem.cti to pyJac's order, and the species order and elemental compositions of the Foam input match pyJac's.",
  "all vectors, each mechanism",
  "For all vectors.",
  ME+"*/lib/src/mechanism.c:apply_mask", ME+"*/lib/src/mechanism.c:apply_reverse_mask", ME+"*/foam/species.foam")
# ---------------------------------------------------------------- added with the model
p("Heat release is the enthalpy of formation weighted rate",
  "Qdot of a cell is minus the sum over all species of the enthalpy of formation times the reaction rate of the cell, and zero when chemistry is switched off.",
  "all rates, enthalpies, numbers of species, exact arithmetic",
  "For all rates and any number of species.",
  PJ+":Qdot")
p("pyJac model refuses a mechanism of another size",
  "The pyJac model is constructed exactly if the number of species equals that of the pyJac library, otherwise a fatal error is raised; the enthalpies of formation are those of the library at 298.15 K; asking for the chemical time scale is always refused.",
  "all libraries and numbers of species",
  "For all pairs of sizes.",
  PJ+":loadBalanced_pyJacChemistryModel", PJ+":tc")
p("Jacobian used by a step belongs to the problem being solved",
  "The first step of an integration uses the Jacobian evaluated at the initial state of this integration, however many attempts it takes; every later step uses the Jacobian of an earlier step or one evaluated at the time of this step. A step that is accepted with another length than the one tried first, because an attempt was rejected, uses one evaluated in this step.",
  "all histories, all problems with positive relative tolerance, any arithmetic",
  "Ranges over everything solved before with the same solver object and all sequences of rejected attempts.",
  SX+":solve")
p("Accepted steps meet the tolerance",
  "When a step is accepted, the difference of the two best extrapolated values, each component in units of absTol + relTol |y|, has a mean square of at most one, and all intermediate temperatures were between 200 and 5000.",
  "all problems, all step histories, exact arithmetic, linear solver that solves regular systems",
  "For all right-hand sides and all orders at which acceptance may happen.",
  SX+":solve", SX+":seul")
p("Steps go forward, and do not pass the end when truncated",
  "Every step of an integration that returns moves by a non-zero amount in the direction of integration and suggests a non-zero next step in that direction; the first step and every step truncated to the end of the interval is at most as large as requested.",
  "all problems, all step histories, exact arithmetic",
  "Ranges over all sequences of rejected attempts.",
  SX+":solve", OD+":solve")
p("An integration is a chain of extrapolated steps up to the end",
  "An integration that returns is a chain of extrapolated linearly implicit Euler steps from the initial to the returned state with Jacobians of the problem; it ends at the end of the interval, or beyond it only by a last step that was neither first nor truncated and became larger than suggested after a rejected attempt.",
  "all problems, intervals and step histories, exact arithmetic",
  "Ranges over all step histories.",
  SX+":solve", OD+":solve")
p("Species rates are the stoichiometric sums of the mechanism file",
  "For each shipped mechanism the production rate of every species is the sum over the reactions of chem.cti of the net stoichiometric coefficient times the net rate of progress (forward minus reverse rate, times the pressure modification for third-body and falloff reactions).",
  "all rate values, all species, each mechanism",
  "Identity in hundreds of independent rates for each species.",
  ME+"*/lib/src/spec_rates.c:eval_spec_rates", ME+"*/chem.cti")
p("Rates of progress obey the law of mass action",
  "At every temperature each reaction has positive forward and (if reversible) reverse rate coefficients, independent of the composition, such that the rates are the coefficient times the product of the concentrations of the reactants respectively products listed in chem.cti.",
  "all temperatures, pressures, concentrations, all reactions, each mechanism; exact arithmetic",
  "For all concentrations and temperatures and hundreds of reactions.",
  ME+"*/lib/src/rxn_rates.c:eval_rxn_rates", ME+"*/chem.cti")
p("Third bodies and falloff follow the efficiencies of the mechanism file",
  "The pressure modification of a third-body reaction is the sum of all concentrations weighted with the efficiencies in chem.cti; that of a falloff reaction is F Pr/(1+Pr) with Pr proportional to that sum and F positive.",
  "all temperatures, pressures, concentrations of an ideal gas, all reactions, each mechanism; exact arithmetic",
  "For all concentrations.",
  ME+"*/lib/src/rxn_rates_pres_mod.c:get_rxn_pres_mod", ME+"*/chem.cti")
p("Concentrations are those of the ideal gas",
  "The density is p/(R T sum Y_i/W_i) and the concentrations are density times Y_i/W_i, sum to p/(R T) and are non-negative for non-negative mass fractions.",
  "all temperatures, pressures and compositions, each mechanism; exact arithmetic",
  "For all states.",
  ME+"*/lib/src/chem_utils.c:eval_conc")
p("Mechanism libraries have no undefined behaviour",
  "No function of a mechanism library reads an uninitialised variable or array element or accesses an array beyond its end, and all output entries are set.",
  "all arguments of any scalar type (so including rounding, infinities and NaN), all functions but the Jacobian, each mechanism",
  "An uninitialised read needs not show in a test; for all inputs.",
  ME+"*/lib/src/dydt.c:dydt", ME+"*/lib/src/rxn_rates.c:eval_rxn_rates", ME+"*/lib/src/chem_utils.c", ME+"*/lib/src/mass_mole.c", ME+"*/lib/src/mechanism.c")
p("dydt is the constant pressure reactor",
  "The right-hand side of the ODE has dY_i/dt = omega_i W_i / rho and dT/dt = -sum h_i W_i omega_i/(rho sum cp_i Y_i) with the ideal gas density and concentrations, rates of progress that obey mass action and the production rates of chem.cti; all species count in the mean heat capacity and in the heat release, including the last one.",
  "all temperatures, pressures and compositions with non-negative mass fractions, each mechanism; exact arithmetic",
  "For all states.",
  ME+"*/lib/src/dydt.c:dydt")
p("An absent species is not consumed",
  "If the mass fraction of a species is zero and the others are not negative, its time derivative is not negative.",
  "all temperatures, pressures and compositions, all species, each mechanism; exact arithmetic",
  "For all states on the boundary of the physical region.",
  ME+"*/lib/src/dydt.c:dydt")
p("Work arrays of the solver have no effect on the fields",
  "With the pyJac model and the repository's integrator, the rates and chemical time steps of all cells after any number of steps do not depend on what the solver object of any rank has left in its work arrays, on which rank integrates which cell, or on whether load balancing is on. (With a zero relative tolerance they do.)",
  "all libraries, linear solvers, positive relative tolerances, numbers of ranks, flows, histories and initial work arrays, in any arithmetic with r < 2r",
  "Ranges over all previous contents of the work arrays and all assignments of cells to ranks.",
  LBCM+":solve", OP+":solve", SX+":solve")
p("The integrator keeps linear invariants",
  "If a linear combination of the unknowns has zero derivative in every state, and the Jacobian agrees, an integration that returns has not changed its value.",
  "all problems, combinations, intervals, step histories and rejected attempts, exact arithmetic",
  "For all problems and step histories.",
  SX+":solve", SX+":seul", SX+":extrapolate", OD+":solve")
p("A state at rest stays at rest",
  "An integration that starts where all derivatives vanish, and returns, returns exactly this state; a cell at rest keeps its temperature and composition.",
  "all problems, Jacobians and step histories, exact arithmetic",
  "For all problems and step histories.",
  SX+":solve", OP+":solve")
p("Reaction rates conserve the elements",
  "With each shipped mechanism and the repository's integrator, the reaction rates of every cell after a step do not destroy any element that the last species (N2) does not contain, and conserve it exactly in an integrated cell in which no mass fraction is cut off at zero.",
  "all flows, time steps, tolerances, numbers of ranks, linear solvers that solve their systems and Jacobian routines consistent with the conservation, with or without mapping and load balancing; exact arithmetic",
  "For all states, mechanisms and step histories; crosses all layers of the code.",
  LBCM+":solve", OP+":solve", SX+":solve", ME+"*/lib/src/dydt.c:dydt")
p("Inert gas does not react",
  "If every reaction lacks a reactant and, if reversible, a product, dydt returns zero for temperature and all species; in particular in any mixture of N2 and AR, for each shipped mechanism. The reaction rates of such a cell are zero after the step.",
  "all temperatures, pressures and such compositions, each mechanism, all step histories; exact arithmetic",
  "For all states; crosses all layers of the code.",
  ME+"*/lib/src/dydt.c:dydt", LBCM+":solve", OP+":solve")
p("Reaction rates sum to zero",
  "With the pyJac model the reaction rates of all species sum to zero in every cell, integrated or mapped, if the mass fractions sum to one before the step, whatever the mechanism library, the Jacobian and the linear solver compute.",
  "all libraries, linear solvers, flows, numbers of ranks, with or without mapping and load balancing; exact arithmetic",
  "For all libraries and states.",
  LBCM+":solve", OP+":solve")
p("Heat capacities and enthalpies are those of chem.cti",
  "eval_cp and eval_h return, for every species, the heat capacity and enthalpy per mass of the NASA polynomials chem.cti gives for the species, with the coefficients of the right temperature range, up to 3e-15 of the sum of the absolute values of the terms (rounding of the literals).",
  "all temperatures, all species, each mechanism; exact arithmetic on the written literals",
  "For all temperatures; a wrong coefficient of one of 256 polynomials need not show in a test.",
  ME+"*/lib/src/chem_utils.c:eval_cp", ME+"*/lib/src/chem_utils.c:eval_h", ME+"*/chem.cti")
p("The temperature equation is well posed",
  "From 200 K to 5000 K every heat capacity is at least 12/5 R/W; hence dydt does not divide by zero, and its temperature equation closes the energy balance: mean heat capacity times dT/dt plus the sum of h_i dY_i/dt is zero.",
  "all temperatures from 200 to 5000 K, pressures and compositions with non-negative mass fractions, each mechanism; exact arithmetic",
  "For all temperatures of an interval and all compositions.",
  ME+"*/lib/src/dydt.c:dydt", ME+"*/lib/src/chem_utils.c:eval_cp")
p("The heat capacity is the derivative of the enthalpy",
  "The function eval_h computes for a species is differentiable, except where the polynomials change, and its derivative is what eval_cp computes, up to rounding of the literals.",
  "all real temperatures, all species, each mechanism",
  "For all temperatures; derivatives cannot be tested exactly.",
  ME+"*/lib/src/chem_utils.c:eval_cp", ME+"*/lib/src/chem_utils.c:eval_h")
p("Thermodynamics has no significant jumps",
  "Heat capacity and enthalpy of every species are continuous functions of the temperature except where the polynomials change; there the limits from both sides exist, and differ by at most 0.2 % (heat capacity) and by no more than 0.1 K times the heat capacity (enthalpy).",
  "all real temperatures, all species, each mechanism",
  "Continuity is a statement about all temperatures.",
  ME+"*/lib/src/chem_utils.c:eval_cp", ME+"*/lib/src/chem_utils.c:eval_h")
p("Chemistry and flow use the same thermodynamics",
  "From 300 K to 3000 K (the range of foam/thermo.foam) the heat capacity of every species in the library and that of the JANAF polynomials in foam/thermo.foam differ by at most 1 %, and the enthalpies by no more than 1.1 K times the heat capacity.",
  "all temperatures from 300 to 3000 K, all species, each mechanism; exact arithmetic, same gas constant on both sides",
  "For all temperatures; the two descriptions are different polynomials.",
  ME+"*/lib/src/chem_utils.c:eval_cp", ME+"*/lib/src/chem_utils.c:eval_h", ME+"*/foam/thermo.foam")
p("Rate coefficients are those of chem.cti",
  "For every reaction eval_rxn_rates computes the forward rate with the Arrhenius coefficient chem.cti gives (converted to SI units with kmol, and E/R with the same gas constant as everywhere), up to a relative error of exp((1 + |E|/(R T)) / 10^14), which is below 10^-10 from 200 K to 6000 K.",
  "all positive temperatures, all concentrations, all reactions, each mechanism; exact arithmetic on the written literals, real exp, log and pow",
  "For all temperatures; a wrong digit in one of hundreds of pre-computed logarithms need not show in a test.",
  ME+"*/lib/src/rxn_rates.c:eval_rxn_rates", ME+"*/chem.cti")
p("Reactions respect thermodynamic equilibrium",
  "For every reversible reaction the ratio of forward and reverse rate coefficients is the equilibrium constant of the thermodynamic data of chem.cti; therefore forward and reverse rates agree in a mixture in equilibrium, and otherwise the reaction runs towards equilibrium, up to a relative error below 10^-10 from 200 K to 6000 K.",
  "all temperatures from 200 to 6000 K (and a bound for all positive ones), all concentrations, all reversible reactions, each mechanism; exact arithmetic, real exp and log",
  "For all temperatures and compositions; the code adds pre-computed sums of polynomial coefficients of all species of a reaction.",
  ME+"*/lib/src/rxn_rates.c:eval_rxn_rates", ME+"*/chem.cti")
p("Falloff is Lindemann's and Troe's with the parameters of chem.cti",
  "For every falloff reaction get_rxn_pres_mod computes F Pr / (1 + Pr) with Pr = k0(T) [M] / kInf(T), [M] weighted with the efficiencies, and F = 1 or Troe's broadening factor, with the parameters of chem.cti, up to rounding of the literals; the guard of the logarithm of the centre is never active up to 100000 K.",
  "all positive temperatures up to 100000 K, all pressures and concentrations that sum to those of the ideal gas, all falloff reactions, each mechanism; exact arithmetic, real exp, log and pow",
  "For all temperatures, pressures and compositions.",
  ME+"*/lib/src/rxn_rates_pres_mod.c:get_rxn_pres_mod", ME+"*/chem.cti")
p("The right-hand side is the reactor of chem.cti",
  "dydt returns the time derivatives of mass fractions and temperature of the homogeneous reactor at constant pressure and enthalpy, written down from chem.cti alone (reactions, Arrhenius, third-body and falloff parameters, NASA polynomials, atomic weights) by textbook formulas: up to 10^-9 of the total turnover of the species from 200 K to 6000 K, and for the temperature up to 10^-9 of the sum of the absolute values of its terms from 200 K to 5000 K.",
  "all pressures > 0, temperatures of the interval and compositions with non-negative mass fractions, all species, each mechanism, except where the denominator of Troe's formula vanishes (by a margin of 10^-9 in lg Pr); exact arithmetic, real exp, log and pow",
  "For all states; whether thousands of generated statements with pre-computed constants mean the mechanism that was put in cannot be settled by comparing a few states.",
  ME+"*/lib/src/dydt.c:dydt", ME+"*/lib/src/rxn_rates.c:eval_rxn_rates", ME+"*/lib/src/rxn_rates_pres_mod.c:get_rxn_pres_mod", ME+"*/lib/src/spec_rates.c:eval_spec_rates", ME+"*/lib/src/chem_utils.c:eval_conc", ME+"*/chem.cti")
p("The analytical Jacobian of drm19 has no undefined behaviour",
  "eval_jacob of the drm19 library returns without undefined behaviour and with all entries defined if the caller has initialised the buffer; entries of argon are left as the caller initialised them (hence zero for the caller in the repository), and an uninitialised buffer is undefined behaviour.",
  "all pressures, temperatures, compositions and contents of the buffer, in every arithmetic",
  "For all inputs; uninitialised reads need not show in a test.",
  ME+"drm19/lib/src/jacob.c:eval_jacob", ME+"drm19/lib/src/jacobs/jacob_0.c:eval_jacob_0", PJ+":jacobian")
p("The analytical Jacobian of drm19 has the temperature derivatives of the species",
  "At every state at which the reactor of C83 is differentiable, the entries of eval_jacob for the derivatives of the rates of change of the mass fractions by the temperature are those derivatives (in the sense of calculus, of the reactor written down from chem.cti alone), up to 10^-5 of the total turnover of the species divided by the temperature.",
  "all pressures > 0, temperatures from 200 K to 6000 K and compositions with non-negative mass fractions, all species, except temperatures at which the thermodynamic polynomials change, poles of Troe's formula and reduced pressures below 10^-300; buffer of zeros; exact arithmetic, real exp, log and pow",
  "For all states; a wrong derivative of one of 84 reactions only slows down the implicit solver.",
  ME+"drm19/lib/src/jacob.c:eval_jacob", ME+"drm19/lib/src/jacobs/jacob_0.c:eval_jacob_0", ME+"drm19/lib/src/jacobs/jacob_1.c:eval_jacob_1", ME+"drm19/lib/src/jacobs/jacob_2.c:eval_jacob_2", ME+"drm19/chem.cti")
p("The analytical Jacobian of drm19 has the derivatives of the species by the species",
  "At every state at which the reactor of C83 is differentiable, the 20 x 20 entries of eval_jacob for the derivatives of the rates of change of the mass fractions by the mass fractions (the last species, nitrogen, making up for the change) are those derivatives (in the sense of calculus, of the reactor written down from chem.cti alone), up to 10^-7 of the sum of the sizes of the terms of the derivative.",
  "all pressures > 0, temperatures from 200 K to 6000 K and compositions with non-negative mass fractions, all pairs of the first 20 species, except poles of Troe's formula and reduced pressures below 10^-300; buffer of zeros; exact arithmetic, real exp, log and pow",
  "For all states; 400 entries with contributions of 84 reactions each, and a wrong one only slows down the implicit solver.",
  ME+"drm19/lib/src/jacob.c:eval_jacob", ME+"drm19/lib/src/jacobs/jacob_0.c:eval_jacob_0", ME+"drm19/lib/src/jacobs/jacob_1.c:eval_jacob_1", ME+"drm19/lib/src/jacobs/jacob_2.c:eval_jacob_2", ME+"drm19/lib/src/jacobs/jacob_3.c:eval_jacob_3", ME+"drm19/chem.cti")
p("The analytical Jacobian of drm19 has the derivatives of the temperature",
  "At every state at which the reactor of C83 is differentiable, the remaining 21 entries of eval_jacob are the derivatives of the rate of change of the temperature by the mass fraction of each of the first 20 species (nitrogen making up for the change), up to 2*10^-7 of the sum of the sizes of the terms of the derivative, and by the temperature, up to 2*10^-5 of that sum. With C85 and C86 all 441 entries are those of the Jacobian of the reactor.",
  "all pressures > 0, temperatures from 200 K to 5000 K and compositions with non-negative mass fractions, except poles of Troe's formula, reduced pressures below 10^-300 and, for the derivative by the temperature, temperatures at which the thermodynamic polynomials change; buffer of zeros; exact arithmetic, real exp, log and pow",
  "For all states; each of these entries sums contributions of all reactions and species.",
  ME+"drm19/lib/src/jacob.c:eval_jacob", ME+"drm19/lib/src/jacobs/jacob_3.c:eval_jacob_3", ME+"drm19/chem.cti")
p("The integrator gets the rates of change and the Jacobian of the reactor",
  "With a shipped mechanism, the derivatives that the pyJac chemistry model hands to the integrator for the state (temperature, mass fractions of all species but the last, pressure) are those of the reactor written down from chem.cti, up to 10^-9 of the sum of the absolute values of their terms; with the drm19 library the matrix that jacobian hands to it is the Jacobian matrix of that reactor, entry by entry up to 2*10^-5 of the sizes of the terms of the derivative (the column of the constant pressure is left zero).",
  "all states from 200 K to 5000 K with positive pressure and non-negative mass fractions (also of the last species), except poles of Troe's formula and, for the Jacobian, temperatures at which the thermodynamic polynomials change and reduced pressures below 10^-300; all entries; each mechanism for the derivatives, drm19 for the Jacobian; exact arithmetic, real exp, log and pow",
  "For all states; a transposed or shifted entry still lets the implicit integrator converge, only slower.",
  PJ+":derivatives", PJ+":jacobian", ME+"drm19/lib/src/jacob.c:eval_jacob", ME+"*/lib/src/dydt.c:dydt", ME+"*/chem.cti")
p("The remaining functions of chem_utils.c are consistent with those the model calls",
  "eval_cv returns the heat capacities of eval_cp less the gas constant over the molecular weight, eval_u the enthalpies of eval_h less that times the temperature (up to 3*10^-15 of the difference), and eval_cv at least 1.39 times the gas constant over the molecular weight from 200 K to 5000 K; eval_conc_rho returns the pressure density R T sum Y_i / W_i and the concentrations density Y_i / W_i, and eval_conc called with this pressure gives back the density and the same concentrations; no undefined behaviour.",
  "all temperatures, densities and compositions, all species, each mechanism; exact arithmetic",
  "For all temperatures and compositions.",
  ME+"*/lib/src/chem_utils.c:eval_cv", ME+"*/lib/src/chem_utils.c:eval_u", ME+"*/lib/src/chem_utils.c:eval_conc_rho")
p("sparse_multiplier multiplies with the Jacobian",
  "sparse_multiplier computes, for every matrix stored column by column as eval_jacob stores the Jacobian, and every vector, their product: entry i is the sum over j of A[j*NSP + i] Vm[j], added from left to right in every arithmetic; no undefined behaviour.",
  "all matrices and vectors, in every arithmetic; each mechanism",
  "For all matrices; a swapped index in one of thousands of terms is invisible if that entry is zero.",
  ME+"*/lib/src/sparse_multiplier.c:sparse_multiplier")
p("The analytical Jacobian of gri30 has the temperature derivatives of the species",
  "At every state at which the reactor of C83 with the gri30 mechanism (325 reactions, 53 species) is differentiable, the entries of eval_jacob for the derivatives of the rates of change of the mass fractions by the temperature are those derivatives (in the sense of calculus, of the reactor written down from chem.cti alone), up to 10^-5 of the total turnover of the species divided by the temperature.",
  "all pressures > 0, temperatures from 200 K to 6000 K and compositions with non-negative mass fractions, all species, except temperatures at which the thermodynamic polynomials change, poles of Troe's formula and reduced pressures below 10^-300; buffer of zeros; exact arithmetic, real exp, log and pow",
  "For all states; a wrong derivative of one of 325 reactions only slows down the implicit solver.",
  ME+"gri30/lib/src/jacob.c:eval_jacob", *[ME+"gri30/lib/src/jacobs/jacob_%d.c:eval_jacob_%d" % (k, k) for k in range(9)], ME+"gri30/chem.cti")
p("The analytical Jacobian of yao has the temperature derivatives of the species",
  "At every state at which the reactor of C83 with the yao mechanism (269 reactions, some of them irreversible, 54 species) is differentiable, the entries of eval_jacob for the derivatives of the rates of change of the mass fractions by the temperature are those derivatives (in the sense of calculus, of the reactor written down from chem.cti alone), up to 10^-5 of the total turnover of the species divided by the temperature.",
  "all pressures > 0, temperatures from 200 K to 6000 K and compositions with non-negative mass fractions, all species, except temperatures at which the thermodynamic polynomials change, poles of Troe's formula and reduced pressures below 10^-300; buffer of zeros; exact arithmetic, real exp, log and pow",
  "For all states; a wrong derivative of one of 269 reactions only slows down the implicit solver.",
  ME+"yao/lib/src/jacob.c:eval_jacob", *[ME+"yao/lib/src/jacobs/jacob_%d.c:eval_jacob_%d" % (k, k) for k in range(7)], ME+"yao/chem.cti")
p("The analytical Jacobian of yao has the temperature derivative of the temperature",
  "At every state at which the reactor of C83 with the yao mechanism is differentiable, the first entry of eval_jacob is the derivative of the rate of change of the temperature by the temperature (in the sense of calculus, of the reactor written down from chem.cti alone), up to 2*10^-5 of the sum of the sizes of the terms of that derivative.",
  "all pressures > 0, temperatures from 200 K to 5000 K and compositions with non-negative mass fractions, except temperatures at which the thermodynamic polynomials change, poles of Troe's formula and reduced pressures below 10^-300; buffer of zeros; exact arithmetic, real exp, log and pow",
  "For all states; the entry sums two terms for each of 54 species, spread over many statements.",
  ME+"yao/lib/src/jacob.c:eval_jacob", *[ME+"yao/lib/src/jacobs/jacob_%d.c:eval_jacob_%d" % (k, k) for k in range(7)], ME+"yao/chem.cti")
p("The analytical Jacobian of gri30 has the temperature derivative of the temperature",
  "At every state at which the reactor of C83 with the gri30 mechanism is differentiable, the first entry of eval_jacob is the derivative of the rate of change of the temperature by the temperature, up to 2*10^-5 of the sum of the sizes of the terms of that derivative. (False of the code: see the note in the manifest and finding 15 of DESIGN.md.)",
  "all pressures > 0, temperatures from 200 K to 5000 K and compositions with non-negative mass fractions, except temperatures at which the thermodynamic polynomials change, poles of Troe's formula and reduced pressures below 10^-300; buffer of zeros; exact arithmetic, real exp, log and pow",
  "For all states; in most mixtures the error is below one percent, and the implicit solver converges in spite of it.",
  ME+"gri30/lib/src/jacob.c:eval_jacob", *[ME+"gri30/lib/src/jacobs/jacob_%d.c:eval_jacob_%d" % (k, k) for k in range(9)], ME+"gri30/chem.cti")
p("In doubles the plan still levels the loads",
  "With all additions, subtractions and divisions of the planning rounded as IEEE 754 prescribes, the loop pairs the ranks such that carrying out all planned operations brings every rank to the exact mean of the loads, up to 30 n^2 u times the mean plus 4 n 10^-15 s (u the unit round-off, 2^-53 for doubles, n the number of ranks): the comparison of loads with the absolute constant SMALL, which is below the spacing of doubles for loads above 8 s, does no harm.",
  "all numbers of ranks up to 300000 (in doubles; in general 10^5 n^2 u <= 1), all non-negative loads with a mean of at least n 10^-10 s, every rounding function that is monotone and has the IEEE error bounds, any outcome of the unstable sort of equal loads; no overflow",
  "The loop branches on a comparison of rounded differences with an absolute tolerance below the resolution of the numbers; a test sees a few load vectors.",
  LB+"LoadBalancer.C:getOperations", LB+"LoadBalancerBase.C:getMean")
p("In doubles the kept operations send surplus to deficits only",
  "With rounding, every operation returned by getOperations starts at a rank whose load is above the exact mean, ends at a rank whose load is below it, and moves more than 0.9 percent of the mean; the operations of a rank send in total at most its surplus over the exact mean and receive at most its deficit, up to 15 n^2 u times the mean.",
  "all numbers of ranks up to 300000 (in doubles), all non-negative loads with a mean of at least n 10^-10 s, every rounding function as in C95; no overflow",
  "Rounded sums could make a rank send although it has less than the mean, for some load vector no test has.",
  LB+"LoadBalancer.C:getOperations")
p("In doubles balancing never makes the slowest rank slower",
  "With rounding in the sums of the measured times, in the planning and in the cutting of the problem list, the exact work of every rank after balancing (its remaining problems and its guests) is at most the larger of its own work and the exact mean, and at most the work of some rank without balancing, up to 30 (M + n^2) u times the mean work (M the largest number of problems of a rank) plus twice the underflow error.",
  "all numbers of ranks up to 300000 (in doubles), all lists of up to 9*10^10 problems per rank with non-negative times and a mean work of at least 2 n 10^-10 s, every rounding function as in C95; no overflow",
  "The bound has to hold for every list of times; rounding errors accumulate in four places.",
  LB+"LoadBalancer.C:updateState", LB+"LoadBalancer.C:timesToProblemCounts", LB+"LoadBalancerBase.C:computeLoad", LB+"LoadBalancer.C:getOperations")
p("In doubles equal loads cause no traffic",
  "With rounding, if all ranks have the same load, be it zero (as in the first time step) or at least n 10^-10 s, no rank gets any operation, although the computed mean can differ from the loads.",
  "all numbers of ranks up to 300000 (in doubles), all loads as said, every rounding function as in C95; no overflow",
  "The rounded mean of n equal numbers differs from them for some n and values only.",
  LB+"LoadBalancer.C:getOperations", LB+"LoadBalancerBase.C:getMean")
p("In doubles the assertion on vanishing load does not fire",
  "With rounding, the mean of the loads left after the planning loop, as getMean computes it, differs from the mean computed before the loop by at most 20 u times the total load; in doubles the assertion 'Vanishing load' of a debug build (difference below 10^-7) holds for all total loads up to 2*10^7 s.",
  "all numbers of ranks up to 300000 (in doubles), all non-negative loads with a mean of at least n 10^-10 s, every rounding function as in C95; no overflow",
  "The assertion aborts the run if the rounding errors of some load vector add up.",
  LB+"LoadBalancer.C:getOperations", LB+"LoadBalancerBase.C:getMean", LB+"runtime_assert.H:runtime_assert")
p("In doubles the driver ends at the end of the interval up to rounding",
  "With rounding, a call of solve over [0, xEnd] that returns has advanced the independent variable to xEnd up to 3 u xEnd (in doubles 2^-51 of xEnd), so the truncated last step is not lost or repeated to the step limit; and if every step advances by some h of at least 8 u xEnd (or by all that was asked for), more than 2 xEnd / h + 1 steps are allowed and the step control keeps suggesting at least h, then solve returns: rounding never leaves the variable short of the end forever.",
  "all steppers that advance by a positive amount up to the requested step, all systems, initial steps and xEnd > 0 (at least 10^-100 for the bound in doubles), every rounding function as in C95; no overflow",
  "Whether the sum of the truncated steps hits the end depends on the last bits: from 0.441 to 0.943 it overshoots by one unit, from 0.2 to 0.856 it falls short and a further step is needed.",
  OD+":solve")
p("In doubles the mass fractions sum to one up to rounding",
  "With rounding, after the pyJac solver integrates a cell, whatever the integrator returned: all mass fractions but the last are non-negative, their exact sum differs from one by at most u (1 + 2 N s) (u the unit round-off, N the number of species, s the sum of all but the last), and if s <= 1 the last one is not below -4 N u.",
  "all integrators, all compositions, all numbers of species with 2 N u <= 1, every rounding function as in C95 for which one is a number; no overflow",
  "For all integrator results; the sum depends on the last bits.",
  OP+":solve")
p("In doubles the reaction rates sum to zero up to rounding",
  "With rounding, with the pyJac model and the repository's integrator: after every step, in every cell of every rank, integrated or mapped, with or without load balancing, the exact sum of the reaction rates over the N species is at most 12 N u times the sum of their sizes plus max(rho/deltaT) (eps + 5 N u), where eps bounds how far the mass fractions of a cell are from summing to one before the step; the mass source this makes in the continuity equation does not depend on what the mechanism library, the Jacobian or the linear solver compute.",
  "all mechanism libraries, linear solvers, positive relative tolerances, flows with positive time steps and density >= 0, clocks, work arrays and numbers of ranks, every rounding function as in C95 for which one and two are numbers; no overflow",
  "For all runs, libraries and schedules; single tests see one composition.",
  OP+":solve", LBCM+":solveSingle", LBCM+":updateReactionRates")
p("In doubles the mixture fraction of the two streams is exact",
  "With rounding: if the coupling functions computed for the two streams differ, the mixture fraction is exactly 0 for the oxidiser composition and exactly 1 for the fuel composition; and compositions that differ only in species without C, H and O have exactly the same mixture fraction.",
  "all dictionaries, species lists and compositions, every rounding function as in C95 for which one is a number; no overflow",
  "For all mechanisms and streams; whether a cell of air is mapped must not depend on the last bits.",
  RM+"mixtureFraction.C:initialize", RM+"mixtureFraction.C:massFractionToMixtureFraction")
p("In doubles streams written to sum to one are accepted",
  "A fuel or oxidiser stream of at most eight named species whose mass fractions, as written in the dictionary, are non-negative and sum to exactly one is accepted by the setup, although the decimals are rounded when read and the sum is compared with one up to 10^-15 only. (Not so for many species: 23 mass fractions with four decimals that sum to exactly one are refused.)",
  "all species lists with an element entry for each species, all written streams with at most eight named species, every format with u <= 2^-53",
  "For all decimals; which sums are off depends on the last bits.",
  RM+"mixtureFraction.C:initialize")
p("In doubles dropping small transfers leaves at most about one percent per transfer",
  "With rounding, after the operations returned by getOperations the planned load of a rank differs from the exact mean by at most 1.01 percent of the mean for each of its planned operations that was dropped as too small (at most n - 1 of them), plus 30 n^2 u times the mean and 4 n 10^-15 s: no larger transfer is dropped, and the tiny negative transfers that rounding creates do not add up.",
  "all numbers of ranks up to 300000 (in doubles), all non-negative loads with a mean of at least n 10^-10 s, every rounding function as in C95; no overflow",
  "For all load vectors; with rounding the plan can contain operations of a few units in the last place, of either sign.",
  LB+"LoadBalancer.C:getOperations")
p("Without mapping the result does not depend on how the mesh is decomposed",
  "With the reference mapping off, a step of the chemistry on n ranks succeeds exactly if it does on n' ranks with another distribution of the cells of the same mesh, with the same reaction rates, chemical time steps and reference map in every cell of the mesh; so do runs of any length coupled to a flow solver that uses these fields, also with the repository's integrator and its work arrays. In exact arithmetic the smallest time step returned by the ranks is the same too. (With mapping on this is false: reference cells are chosen on each rank, so the rates of a mapped cell depend on the decomposition.)",
  "all meshes, numbers of ranks, distributions of the cells, flows, lengths of run, clocks, balancer switches, orders of equal loads and old fields that agree in the chemical time steps; any arithmetic",
  "For all decompositions and histories; a test compares a few decompositions of one case.",
  LBCM+":solve", LBCM+":solveSingle", LBCM+":updateReactionRates")
p("A run can be stopped after any step and continued",
  "For every step after which a run is stopped: the fields of the mesh shown by the uninterrupted run are those of the first part followed by those of a run of new processes that start with the flow and the chemical time steps reached, but with any reaction rates, CPU times (zero, as they are not read), reference maps and work arrays, other clocks and other settings of the balancer; and, with mapping off, on another number of ranks. If the chemical time steps are not carried over this is false.",
  "all stopping points, runs, flows, distributions of the cells, mapping on or off (same distribution) or off (other distribution), fields of the new processes that agree in the chemical time steps; any arithmetic",
  "For all stopping points; the state that new processes lack shows only where it matters.",
  LBCM+":loadBalancedChemistryModel", LBCM+":solve", LBCM+":cpuTimes_")
p("A crashed or failed rank never leaves others with results of an unfinished or wrong step",
  "Let any ranks crash at any points of any schedule. A rank that still finishes a sequence of steps has exactly the results of the run without crashes. With load balancing, if one rank has finished the sequence, every rank has taken part in all three collective operations of every step, the sending of solutions of the last step included; and if a step fails on any rank (a mixture fraction cannot be evaluated, a cell cannot be integrated), in no schedule any rank finishes it. (Without load balancing the other ranks finish a step that fails on one of them.)",
  "all numbers of ranks, sequences of steps, schedules, sets of crashing ranks and crash points, clocks, flows, fields and orders of equal loads; any arithmetic",
  "For every crash point and schedule; a test kills a process at a few points.",
  LBCM+":solve", LB+"LoadBalancerBase.H:sendRecv", LB+"LoadBalancerBase.H:allGather")
p("The reactions of the shear layer tutorial are those of the yao mechanism",
  "The tutorial shearlayer_DLB (standard chemistry solver, constant/reactionsYao) and the yao mechanism (chem.cti, from which the pyJac library is generated) have the same number of reactions in the same order, with equal reactants, products, reversibility and third body concentrations for every mixture; and at every temperature from 300 K to 6000 K and for every mixture outside the poles of Troe's formula the forward rate of each reaction agrees up to a relative difference of 8 K / T + 10^-4 (rate coefficients without falloff: 3 K / T + 3 10^-5). The rates are not equal: the activation temperatures of the tutorial are smaller.",
  "all 269 reactions, all temperatures from 300 K to 6000 K, all concentrations >= 0 at which no falloff reaction is at a pole (shown for all mixtures with reduced pressures up to 10)",
  "The two files are written by different tools in different units; a test compares rates at some states.",
  "tutorials/multicomponentFluid/shearlayer_DLB/constant/reactionsYao:un-named-reaction-0", "tutorials/multicomponentFluid/shearlayer_DLB/constant/chemistryProperties:reactionsYao", "utilities/mechanisms/yao/chem.cti:reaction")
p("Reactions do not change the mixture fraction",
  "The mixture fraction of a cell depends on its composition only through the amounts of carbon, hydrogen and oxygen: compositions with the same amounts have the same mixture fraction and are either both candidates for mapping or both not. So a composition with the elements of a blend of the two streams, however far it has reacted, has the share of the fuel stream as its mixture fraction, and is a candidate exactly if that share is below the tolerance. With a shipped mechanism, integrating a cell for a time step (the repository's integrator and pyJac interface, load balanced or not) changes its mixture fraction by at most 3 10^-15 times its turnover (the sum over the species of the change of the coupling function), divided by the difference of the streams, unless a species is left with mass fraction zero: the remainder is due to the atomic weights of thermo.foam and of the library not being the same.",
  "all compositions, dictionaries and tolerances; all shipped mechanisms, states, flows, numbers of ranks, schedules of transfers, clocks and tolerances, with a linear solver that solves the systems given to it and a Jacobian that conserves the elements",
  "For all compositions and runs; a test computes the mixture fraction of a few mixtures.",
  RM+"mixtureFraction.C:massFractionToMixtureFraction", RM+"mixtureFraction.C:initialize", RM+"mixtureFractionRefMapper.C:shouldMap", LBCM+":solve")
p("What the reference mapping of the tutorials covers",
  "The refmapping settings of the shear layer tutorials are accepted by the setup, with mixture fraction 0 in the oxidiser and 1 in the fuel. Every cell with the elements of a blend of the two streams, burnt or not, is a candidate exactly if less than 10^-4 of its mass is from the fuel stream. Every candidate without negative mass fractions, of whatever origin, consists of oxygen atoms to more than 22.96 percent of its mass (oxidiser: 23 percent). Candidates need not be free of fuel if the oxygen is not from the oxidiser stream: 7 percent of fuel in air enriched with oxygen, which can burn, has a negative mixture fraction and is a candidate.",
  "all compositions of the 54 species of the tutorials; any ordered field of numbers",
  "For all compositions; a test maps some cells.",
  "tutorials/multicomponentFluid/shearlayer_DLB/constant/chemistryProperties:refmapping", "tutorials/multicomponentFluid/shearlayer_DLB_pyJac/constant/chemistryProperties:refmapping", RM+"mixtureFractionRefMapper.C:shouldMap")
p("Reactions obey the second law of thermodynamics",
  "For every mixture, the production rates that a shipped library computes do not increase the Gibbs energy (with the thermodynamic data of chem.cti), up to 10^-10 of the rates of progress, except by irreversible reactions. If the state of the adiabatic reactor moves in the direction that dydt returns, with the last mass fraction as the complement, the entropy of the mixture does not decrease, up to 10^-9 of the absolute values of the terms of its rate of change, except by irreversible reactions. drm19 has no irreversible reactions; each of the 16 of gri30 and 19 of yao runs forward, against its affinity, in some mixtures.",
  "all three mechanisms; Gibbs energy: all positive concentrations and temperatures from 200 K to 6000 K; entropy: all states with positive mass fractions, pressures and temperatures from 200 K to 5000 K, except at the middle temperatures of the polynomials and at poles of Troe's formula",
  "For all mixtures; it needs forward rates, equilibrium constants, falloff and temperature equation to fit together in every reaction.",
  "utilities/mechanisms/drm19/lib/src/rxn_rates.c:eval_rxn_rates", "utilities/mechanisms/drm19/lib/src/dydt.c:dydt", "utilities/mechanisms/gri30/lib/src/rxn_rates.c:eval_rxn_rates", "utilities/mechanisms/yao/lib/src/rxn_rates.c:eval_rxn_rates")
p("The work after balancing is even, and nearly as good as possible",
  "Counting the measured times of the problems each rank really solves after balancing, the work of every rank differs from the mean by at most n - 1 times the larger of one percent of the mean and the longest single problem, plus n 10^-15 s. So the busiest rank has at most that much more than the busiest rank of any other distribution of the same problems. The bound is attained with any number of ranks: a transfer of at most one percent of the mean is never made, so a rank with n - 1 percent more than the mean (twice the mean with 101 ranks) can keep all of it while all others are below the mean.",
  "all numbers of ranks, problem lists and measured times that are not negative; all other distributions; exact arithmetic",
  "For all distributions of times over problems and problems over ranks; a test balances a few lists.",
  LB+"LoadBalancer.C:updateState", LB+"LoadBalancer.C:getOperations", LB+"LoadBalancer.C:timesToProblemCounts", LB+"LoadBalancer.C:operationsToInfo")
p("The work after balancing is even in floating-point arithmetic",
  "With rounding in the sums of the measured times, in the planning and in the cutting of the problem lists, the exact work of every rank after balancing differs from the exact mean by at most n - 1 times the larger of 1.02 percent of the mean and the longest single problem, plus 50 (M + n^2) u times the work of all ranks (M the largest number of problems of a rank, u = 2^-53 for doubles) and 5 n 10^-15 s.",
  "all problem lists with measured times that are not negative and a mean work above 2 n 10^-10 s; any floating-point format that is fine enough; doubles with at most 300000 ranks and 10^10 problems on a rank",
  "For all times, and all roundings on the way; a test balances a few lists.",
  LB+"LoadBalancer.C:updateState", LB+"LoadBalancer.C:getOperations", LB+"LoadBalancer.C:timesToProblemCounts", LB+"LoadBalancer.C:operationsToInfo")
p("With small steps the integration follows the solution of the equations",
  "Let a function of time solve the equations from the initial state, and let their right-hand side be bounded and Lipschitz continuous near it. In exact arithmetic the state returned by an integration is within a constant times the largest step of that function, if the steps are small enough; so for every error bound there is a step size such that every integration with steps of at most that size meets it. Over a short time the mean rate of change that the integration returns is the rate of change at the initial state up to a constant times that time, whatever steps were chosen. The constants are explicit. The matrices used in place of the Jacobian may be wrong, as long as their row sums are bounded.",
  "all systems of equations, initial states, intervals, tolerances, first steps, leftover work arrays, orders of extrapolation (up to 12) and rejected attempts; linear solvers that solve regular systems",
  "For all equations and all sequences of step sizes and orders; a test integrates a few problems and looks at the error.",
  SX+":solve", SX+":seul", SX+":extrapolate", OD+":solve")
p("The extrapolation makes the integration second order for any Jacobian",
  "If the right-hand side has Lipschitz continuous derivatives near the solution, the state returned by an integration is within a constant times the square of the largest step of the solution, in exact arithmetic and for small enough steps. This needs no relation between the matrices used in the steps and the derivatives of the equations: old, inexact or wrong Jacobians with bounded row sums cost no accuracy of that order.",
  "all systems of equations, initial states, intervals, tolerances, first steps, leftover work arrays, orders of extrapolation and rejected attempts; linear solvers that solve regular systems",
  "For all equations, Jacobians and sequences of steps; a test estimates the order on a few problems.",
  SX+":solve", SX+":seul", SX+":extrapolate", OD+":solve")
p("With small time steps the reaction rates are the production rates of the library",
  "After a time step with the pyJac model, the reaction rate of every species but the last in every cell that is not mapped is the density times the rate of change of its mass fraction that the library computes for the state of the cell before the step, up to the density times an explicit constant times the time step; the same holds for the mean rate of change of the temperature, and (if the mass fractions sum to one) of the last species, whose rate is minus the sum of the others. The constant depends on how large and how steep the rates are near the state of the cell, not on tolerances, step sizes, the ranks or the load balancing.",
  "all libraries, cells, numbers of ranks, problem distributions, leftover work arrays, tolerances and first steps, for time steps that are small against the rates and in which no species would be used up; linear solvers that solve regular systems",
  "For all states and all steps of the adaptive integration on any rank; a test compares the rates of some cells.",
  PJ+":derivatives", OP+":solve", SX+":solve", OD+":solve", LBCM+":solve", LBCM+":updateReactionRates")
p("Cells follow the reactor with the chemistry of the mechanism file",
  "Let a function of time solve the equations of the reactor that chem.cti describes (constant pressure, no negative mass fraction), from the state of a cell, and let the rates of the reactor be bounded and Lipschitz continuous near it. The temperature and the mass fractions that the integration of the cell with the shipped library returns are within exp(L dt) (C H + 411 S 10^-9) dt of that function: H is the largest step, C an explicit constant, L the Lipschitz constant, S the size of the terms of the rates, and 10^-9 bounds by how much the library deviates from chem.cti. So the reaction rates of the cell, on any number of ranks, are the density times the mean rates of change in the reactor, up to that error over dt. For general equations: if the right-hand side that is integrated is within d of that of the equations, the error grows by 411 d times the time.",
  "all three mechanisms, solutions, cells, numbers of ranks, problem distributions, leftover work arrays, tolerances, first steps and Jacobian routines with bounded row sums; linear solvers that solve regular systems",
  "For all states and all steps of the adaptive integration; a test compares the solution of a few reactors with a reference.",
  PJ+":derivatives", OP+":solve", SX+":solve", OD+":solve", LBCM+":solve", "utilities/mechanisms/drm19/lib/src/dydt.c:dydt")
p("The reactor of every mechanism has a solution, and short integrations with small steps follow it",
  "From every state between 200 K and 5000 K that is not at a middle temperature of the polynomials nor at a pole of Troe's formula, with positive pressure, no negative mass fraction, and the last species present, the equations of the reactor that chem.cti describes have a solution for some time; no mass fraction becomes negative along it, and there is no other solution without negative mass fractions. For every such state and every bound on the Jacobians there are a time b, a step H0 and a constant K such that the result of integrating a cell in that state with the shipped library, over any time dt up to b with steps of at most H up to H0, is the state of the reactor at dt up to K (H + 10^-9) dt; and the reaction rates of such a cell in a time step of the load-balanced model on any number of ranks are the density times the mean rates of change in the reactor up to K (H + 10^-9) times the density.",
  "all three mechanisms; all states inside the domain; all time steps, numbers of ranks, problem distributions, leftover work arrays, tolerances, first steps and Jacobian routines with bounded row sums",
  "That a solution exists and is unique is a statement about all functions; the error bound is for all states and runs.",
  PJ+":derivatives", OP+":solve", SX+":solve", OD+":solve", LBCM+":solve", "utilities/mechanisms/drm19/lib/src/dydt.c:dydt", "utilities/mechanisms/gri30/lib/src/dydt.c:dydt", "utilities/mechanisms/yao/lib/src/dydt.c:dydt")
p("Cells keep their enthalpy and their atoms, do not lose entropy, and stay in equilibrium",
  "From every state inside the domain there are a time b, a step H0 and a constant K such that integrating a cell in that state with the shipped library, over any time dt up to b with steps of at most H up to H0, changes the enthalpy per mass of the cell and the amount of every chemical element in it by at most K (H + 10^-9) dt. If all reactions of the mechanism are reversible and all species are present, the entropy per mass at the pressure of the cell decreases by at most K (H + 10^-9) dt. If the reactor that chem.cti describes is at rest in the state (chemical equilibrium), temperature and mass fractions change by at most K (H + 10^-9) dt.",
  "all three mechanisms; all states inside the domain; all time steps, leftover work arrays, tolerances, first steps and Jacobian routines with bounded row sums; linear solvers that solve regular systems",
  "For all states and all steps of the adaptive integration; a test looks at the balances of a few cells.",
  PJ+":derivatives", OP+":solve", SX+":solve", OD+":solve", "utilities/mechanisms/drm19/lib/src/dydt.c:dydt")
p("Short time steps are one step of the integrator and give the rates of the mechanism file",
  "From every state inside the domain, with positive tolerances, there is a time b such that the integration of a cell in that state with the shipped library over any time dt up to b, with an initial step that is not shorter, returns after one step of size dt that is accepted at the first attempt and made with the Jacobian at the initial state, whatever is in the work arrays and whatever the Jacobian routine returns. The result is the state of the reactor at dt up to K (dt + 10^-9) dt; enthalpy and atoms change by at most that much. In a time step of the load-balanced model on any number of ranks the reaction rate of every species in every such cell that is not mapped is the density times the rate of change of its mass fraction according to chem.cti, up to K (dt + 10^-9) times the density.",
  "all three mechanisms; all states inside the domain; all Jacobian routines, tolerances, time steps up to b, numbers of ranks, problem distributions and leftover work arrays; linear solvers that solve regular systems",
  "For all states, and all time steps down to zero; a test runs a few time steps.",
  PJ+":derivatives", PJ+":jacobian", OP+":solve", SX+":solve", OD+":solve", LBCM+":solve", LBCM+":updateReactionRates")
p("Slices and accesses are the entries asked for, and anything else is undefined",
  "Block i of a send buffer is the counts[i] entries after the blocks before it, and it is defined exactly if there is a count i and the values have these entries. The remaining problems are the last nRemaining entries, and are defined exactly if there are so many. An element access is defined exactly within the list or field, a write changes this entry only. Everything else is undefined behaviour, not an error exit.",
  "all lists, counts, positions and states",
  "A slice that is out of range by one entry usually goes unnoticed when it is run.",
  LB+"SendBuffer.H:operator[]", LB+"LoadBalancerBase.H:getRemaining")
p("Over short times every step is accepted at once, whatever the initial step",
  "From every state inside the domain near which the Jacobian routine is bounded, with positive tolerances, there is a time b such that the integration of a cell in that state over any time dt up to b, with any positive initial step, returns if maxSteps times the initial step reaches dt, even if every step is given only one attempt and whatever is in the work arrays: no step is rejected, and the steps add up to dt. The result is the state of the reactor of chem.cti at dt up to K (dt + 10^-9) dt; enthalpy and atoms change by at most that much, and the reaction rates of such cells in a time step of the load-balanced model are the density times the rates of change according to chem.cti, up to K (dt + 10^-9) times the density.",
  "all three mechanisms; all states inside the domain; all tolerances, time steps up to b, initial steps, numbers of ranks, problem distributions and leftover work arrays; linear solvers that solve regular systems",
  "For all states, time steps down to zero, and initial steps; a test runs a few time steps.",
  PJ+":derivatives", PJ+":jacobian", OP+":solve", SX+":solve", OD+":solve", LBCM+":solve", LBCM+":updateReactionRates")
p("Time steps that are short enough succeed on all ranks",
  "A time step of the load-balanced pyJac model returns on all ranks, in any arithmetic, if the integration of every reference cell and of every cell that is not mapped returns and the mapper knows all species. For all states of the cells inside the domain near which the Jacobian routine is bounded, and all positive tolerances, there are a time b and a constant K such that every time step in which no cell is integrated for longer than b, and maxSteps times the initial chemical time step of every cell reaches its time step, succeeds, with or without load balancing and mapping, on any number of ranks and whatever is in the work arrays and fields; the reaction rates of the cells that are not mapped are the density times the rates of change according to chem.cti up to K (dt + 10^-9) times the density.",
  "all three mechanisms; all numbers of ranks and cells, states inside the domain, tolerances, initial chemical time steps, orders of equal loads, clocks and leftover work arrays; linear solvers that solve regular systems",
  "For all states of all cells and all problem distributions; a test runs a few cases.",
  LBCM+":solve", LBCM+":solveSingle", LBCM+":updateReactionRates", OP+":solve", SX+":solve", OD+":solve")
p("With the drm19 library as it is shipped, short time steps succeed",
  "The Jacobian that the integrator gets from the drm19 library is bounded near every state inside the domain at which the rates of change are differentiable, also where mass fractions are zero, and for intermediate states of the integrator with negative mass fractions. Hence, without any assumption on the Jacobian: the integration of a cell in such a state over any time dt up to some b, with any initial step of which maxSteps reach dt, returns the state of the reactor of chem.cti at dt up to K (dt + 10^-9) dt; and time steps of the load-balanced model of up to some b succeed on all ranks, with reaction rates that are those of chem.cti up to K (dt + 10^-9) times the density.",
  "all states inside the domain at which the rates are differentiable; all tolerances, time steps up to b, initial steps, numbers of ranks and cells, problem distributions and leftover work arrays; linear solvers that solve regular systems",
  "Boundedness concerns all states of a neighbourhood; a test evaluates the routine at a few of them.",
  PJ+":jacobian", PJ+":derivatives", OP+":solve", SX+":solve", OD+":solve", LBCM+":solve", ME+"drm19/lib/src/jacob.c:eval_jacob")
p("In doubles the mixture fraction is Bilger's up to rounding, and so is the choice of mapped cells",
  "In arithmetic with rounding, the mixture fraction that the mapper computes for a composition is Bilger's mixture fraction of the same floating-point inputs up to 7 (14 + 3 n) u B / |beta1 - beta0| times one plus its size, where n is the number of species, u the unit round-off and B bounds the sum of the absolute values of the terms of the coupling functions of the two streams and of the composition. An active mapper marks a cell for mapping only if Bilger's mixture fraction is below the tolerance plus this error, and leaves it to be integrated only if it is at least the tolerance minus the error. In doubles, with up to a hundred species and B at most ten times |beta1 - beta0|, the error is at most 5e-12 times one plus the size of the mixture fraction.",
  "all lists of species, streams, molecular weights, element contents, compositions and tolerances in range; all roundings to nearest",
  "For all compositions and all roundings; a test compares a few compositions.",
  RM+"mixtureFraction.C:initialize", RM+"mixtureFraction.C:massFractionToMixtureFraction", RM+"mixtureFractionRefMapper.C:shouldMap")
p("The integrator does not amplify what relaxes, however long the steps are",
  "If a linear combination of the unknowns relaxes to a limit with a rate lam >= 0 (its rate of change is -lam times its distance from the limit, and the Jacobian has it as a left eigenvector with the eigenvalue -lam), every accepted step of any length dx and any order brings it closer to the limit by a factor of at least 1 + lam dx / 2, and an integration over the time t that returns by a factor of at least 1 + lam t / 2. This holds for arbitrarily stiff equations and steps that are long against 1/lam, and in particular for the left eigenvectors of linear systems.",
  "all systems of equations with such a combination, rates lam >= 0, tolerances, steps taken or rejected, orders of the extrapolation, contents of the work arrays and intervals",
  "For all rates and step lengths at once; a test integrates a few equations.",
  SX+":solve", SX+":seul", SX+":extrapolate", OD+":solve")
p("The integrator follows exponential relaxation with an error of the order of the extrapolation",
  "If a linear combination of the unknowns relaxes to a limit with a rate lam >= 0, as in the property on amplification, an accepted step of length dx multiplies its distance from the limit by exp(-lam dx), up to a relative error of 206 (lam dx)^(k+2), where k >= 1 is the number of the last row of the extrapolation. An integration over the time t whose steps are at most H ends at exp(-lam t) times the initial distance, up to 206 lam t (lam H)^2 times the initial distance. The constants do not depend on the other unknowns, however stiff they are, nor grow exponentially with the time. For a linear system with any eigenvalues, whose matrix is the Jacobian and has row sums of at most L, an accepted step of length dx <= 1/(2 L) from a point of a solution ends on the solution up to 412 (L dx)^(k+2) times the distance from the equilibrium.",
  "all systems of equations with such a combination, rates lam >= 0, tolerances, steps taken or rejected, orders of the extrapolation, contents of the work arrays and intervals",
  "For all rates, orders and step lengths at once; a test integrates a few equations.",
  SX+":solve", SX+":seul", SX+":extrapolate", OD+":solve")
p("The log of the computing times says what was measured, and is read back in the right columns",
  "With log on, the file cpu_solve.out of a rank has one line for each call of solve with chemistry on, in their order, and none for the others. The columns that the script solve_buffer.py reads are the time of the simulation and the times spent in gathering the problems, in planning, in sending, in solving (own and received problems) and in returning the solutions; with balancing off the times of planning, sending and returning are zero, and that of solving is that of the rank's own problems. Ranks that make the same calls have equally many entries, as needed for the mean. Without log there is no file.",
  "all sequences of calls, switches, ranks, durations and ways of writing numbers without white space",
  "For all histories of calls; a test reads a few lines.",
  LBCM+":solve", LBCM+":loadBalancedChemistryModel", "tutorials/multicomponentFluid/shearlayer_DLB/solve_buffer.py:lines_solve")
p("What the ranks print about the balancing is complete and consistent",
  "After the balancer has made its plan, every rank that sends problems prints where it sends them and how many to each rank, every rank that receives prints from which ranks, and no transfer is left out. A rank says that it sends to another exactly if the other says that it receives from it. The printed numbers of problems sent and kept add up to the problems of the rank, and none of the kept ones is negative.",
  "all numbers of ranks, problem distributions, CPU times and orders of equal loads",
  "Concerns the messages of all ranks together, for all plans.",
  LB+"LoadBalancerBase.C:printState", LB+"LoadBalancer.C:updateState", LBCM+":solve")
p("The validation test starts from the mixture asked for, and passes only if the results agree",
  "The program of the validation test turns the given amounts or masses of species, in whatever proportion, into mole and mass fractions that are those of one mixture of these amounts or masses; they are between 0 and 1 and add up to 1, and species that are not given are absent. It ends with the status 0 exactly if the enthalpy from the library agrees with the reference and with OpenFOAM's enthalpy, before and after the integration, and the final temperature agrees with its reference, each up to its tolerance relative to the size of the reference.",
  "all lists of species, given fractions that are not negative and not all zero, positive molecular weights, enthalpies, references other than zero and tolerances",
  "This is a property of the test program itself, for all compositions and results; the test is run with one composition.",
  "tests/validation/pyjacTests/PSRTest/setFractionBasis.H:fractionBasis", "tests/validation/pyjacTests/PSRTest/PSRTest.C:relative_error", "tests/validation/pyjacTests/PSRTest/PSRTest.C:validatePyjacEnthalpy", "tests/validation/pyjacTests/PSRTest/PSRTest.C:checkTemperature")
p("Where all species are present, cells follow the reactor to second order",
  "For every shipped mechanism and every state inside the domain in which all species are present (between 200 K and 5000 K, at no temperature at which the thermodynamic polynomials change, no Troe formula at its pole or with a reduced pressure below 10^-300): there are a solution of the reactor of chem.cti that starts at the state, a time b, a step H0 and a constant K such that, if a cell in this state is integrated over a time dt <= b with steps of at most H <= H0 and Jacobians that are bounded, the temperature and mass fractions returned are those of the reactor at dt, up to K (H^2 + 10^-9) dt, and the reaction rates of a time step on any number of ranks are the density times the mean rates of change in the reactor, up to K (H^2 + 10^-9) times the density. With the drm19 library and its own Jacobian nothing is assumed on the steps: the integration returns, and the error is at most K (dt^2 + 10^-9) dt. The general statement holds for all equations that are smooth to second order around a solution, if the right-hand side that is integrated differs from theirs by at most delta: the error is at most a constant times H^2, plus 205 (1 + 3 (Lambda + L) H) delta, times the time and the growth of errors in the equations.",
  "all shipped mechanisms, states inside the domain with all species present, bounds on the Jacobians, tolerances, linear solvers that solve regular systems, contents of the work arrays, initial steps and times up to b",
  "For all states, tolerances and steps; a test compares one cell with a reference.",
  SX+":solve", SX+":seul", SX+":extrapolate", OD+":solve", PJ+":derivatives", OP+":solve", LBCM+":solve", ME+"*/lib/src/dydt.c:dydt")
p("The test scripts report what the tests found, and leave the case as it was",
  "After the installation has run the test scripts, each check is reported as passed exactly if the program that it ran found no fault: the validation against the reference, the refusal of a mechanism of another size, and the dynamic compilation; the unit tests stop the installation if they fail on any number of processes. The dictionaries of the test case are afterwards what they were. (The first report, the cause of the second and the unit tests on two and four processes are not as stated: see the counterexamples.)",
  "all test programs whose status is determined by the dictionary of the case and that do not change it, all contents of the dictionaries, all outcomes of the change of the dictionary, all statuses of the unit tests",
  "This is a property of the scripts that run the tests, for all outcomes of the tests.",
  "tests/validation/pyjacTests/PSRTest/runTests.sh:PSRTest.bin", "tests/unittests/test.sh:mpirun", "Allwmake:runTests.sh")
p("Chemistry models can be chosen by name",
  "The loaded library offers exactly the combinations of the solvers noChemistrySolver, ode and ode_pyJac, the methods loadBalanced and loadBalanced_pyJac, and the thermodynamics with coefficients that OpenFOAM provides, each registered once. For any other thermodynamics, the code generated from the template includes the header of the chosen model and registers the chosen combination of solver, method and thermodynamics, nothing twice and nothing for another solver or other thermodynamics. (For models other than those of OpenFOAM and DLBFoam the generated code does not register the chosen model: see the counterexample.)",
  "all lists of thermodynamics of OpenFOAM, all names of solvers, methods and thermodynamics",
  "For all names; a test chooses one model.",
  "src/thermophysicalModels/chemistryModel/chemistrySolver/DLBmakeChemistrySolver.H:DLBmakeChemistrySolvers", "src/thermophysicalModels/chemistryModel/chemistrySolver/DLBodePyJacChemistrySolvers.C:DLBmakeChemistrySolvers", "etc/codeTemplates/dynamicCode/basicChemistryModelTemplate.C:loadBalanced_pyJacChemistryModelCppTest", "src/thermophysicalModels/chemistryModel/chemistryModel/loadBalancedChemistryModel/loadBalancedChemistryModel.H:TypeName")
p("The heat release takes the flow to the temperature that the cell reached",
  "If a flow at constant pressure takes up the reaction rates of a cell over a time step, and the heat release as a source of sensible enthalpy, as the validation test does, its absolute enthalpy is conserved, whatever the enthalpies of formation that the heat release is computed with. For every shipped mechanism and every state inside the domain there are a time b, a step H0, a distance r0 and a constant K such that, after an integration of the cell over a time dt <= b with steps of at most H <= H0, there is exactly one temperature within r0 of that of the cell that has the enthalpy of the flow, and it is the temperature that the integration reached, up to K (H + 10^-9) dt.",
  "all shipped mechanisms, states inside the domain, bounds on the Jacobians, enthalpies of formation, densities, tolerances, linear solvers that solve regular systems, contents of the work arrays, initial steps and times up to b",
  "The temperature is computed twice, by the integrator and by the flow from the enthalpy; that they agree concerns all states and steps.",
  PJ+":Qdot", OP+":solve", LBCM+":solve", "tests/validation/pyjacTests/PSRTest/solveChemistry.H:integratedHeat", "tests/validation/pyjacTests/PSRTest/hEqn.H:integratedHeat", ME+"*/lib/src/chem_utils.c:eval_h")
p("A simulation of many time steps follows the reactor",
  "For every shipped mechanism and every solution of the reactor of chem.cti that stays inside the domain (between 200 K and 5000 K, at no temperature at which the thermodynamic polynomials change, mass fractions not negative, no Troe formula at its pole or with a reduced pressure below 10^-300) up to some time, there are a step H0, a distance rho and a constant K such that: if a flow at constant pressure starts at a distance e from the solution, and in each of any number of time steps, on any number of ranks, takes up the reaction rates and the heat release of the load-balanced model, integrated with steps of at most H <= H0, the temperature, pressure and mass fractions of the cell are those of the solution at all times t of the time steps, up to K (e + (H + 10^-9) t), as long as this is at most rho. The same holds if the flow sets the temperature in another way, with the deviations from the integrated temperature added to e. If the Jacobians are bounded near the solutions, as those of the drm19 library are, nothing is assumed on the steps: if the time steps are at most h <= b, all time steps succeed on all ranks, the flow finds a temperature with the enthalpy that it is given, and the error is at most K (e + (h + 10^-9) t), so that the simulation goes on to the end of the solution or until this exceeds rho. This holds for the simulation as it runs, in which each time step starts from the work arrays and the chemical time steps that the one before left: these do not become too short. From every state inside the domain starts such a solution.",
  "all shipped mechanisms, solutions inside the domain, numbers and lengths of time steps, numbers of ranks, orders of equal loads, CPU times, bounds on the Jacobians, tolerances, linear solvers that solve regular systems, contents of the work arrays, initial steps",
  "Concerns the accumulated error of any number of calls, each with its own balancing; a test runs a few time steps.",
  PJ+":Qdot", OP+":solve", LBCM+":solve", "tests/validation/pyjacTests/PSRTest/solveChemistry.H:integratedHeat", "tests/validation/pyjacTests/PSRTest/hEqn.H:integratedHeat", SX+":solve", OD+":solve", ME+"*/lib/src/dydt.c:dydt")
p("Where all species are present, simulations of many time steps follow the reactor to second order",
  "For every shipped mechanism and every solution of the reactor of chem.cti that stays inside the domain up to some time with all species present, there are a time b, a step H0, a distance rho and a constant K such that: if a flow at constant pressure starts at a distance e from the solution, and in each of any number of time steps of at most b, on any number of ranks, takes up the reaction rates and the heat release of the load-balanced model, integrated with steps of at most H <= H0, the temperature, pressure and mass fractions of the cell are those of the solution at all times t of the time steps, up to K (e + (H^2 + 10^-9) t), as long as this is at most rho. If the Jacobians are bounded near the solutions, as those of the drm19 library are, nothing is assumed on the steps: if the time steps are at most h <= b, all time steps succeed on all ranks, each from the work arrays and chemical time steps that the one before left, and the error is at most K (e + (h^2 + 10^-9) t), so that halving the time step divides the bound by four, down to the error of the rounded constants of the library.",
  "all shipped mechanisms, solutions inside the domain with all species present, numbers and lengths of time steps, numbers of ranks, orders of equal loads, CPU times, bounds on the Jacobians, tolerances, linear solvers that solve regular systems, contents of the work arrays, initial steps",
  "Concerns the accumulated error of any number of calls for all short time steps; a test runs a few time steps of a few lengths.",
  PJ+":Qdot", OP+":solve", LBCM+":solve", "tests/validation/pyjacTests/PSRTest/solveChemistry.H:integratedHeat", "tests/validation/pyjacTests/PSRTest/hEqn.H:integratedHeat", SX+":solve", SX+":extrapolate", OD+":solve", ME+"*/lib/src/dydt.c:dydt")
p("Over any number of time steps cells keep mass, pressure, enthalpy and elements",
  "With the pyJac model and the repository's integrator: if a flow at constant pressure takes up the reaction rates and, as a source of sensible enthalpy, the heat release of any number of time steps, then at all times each cell has the pressure and the absolute enthalpy that it started with, whatever the enthalpies of formation that the heat release is computed with, and its mass fractions sum to one if they did at the start. This holds for mapped and for integrated cells, with or without load balancing, whatever the mechanism library, the Jacobian routine and the linear solver compute, and however large the steps are. A cell that is integrated has afterwards no negative mass fraction, but possibly that of the last species. For every shipped mechanism, with a Jacobian that conserves the element and a linear solver that satisfies the equation of its amount, no cell ever loses an element that the last species does not contain.",
  "all mechanism libraries, linear solvers, tolerances, numbers and lengths of time steps, numbers of ranks, orders of equal loads, CPU times, mappings, enthalpies of the species, contents of the work arrays, chemical time steps",
  "Concerns all histories of time steps, whatever the integrator returns in each; a test checks a few time steps up to a tolerance.",
  PJ+":Qdot", OP+":solve", LBCM+":solve", LBCM+":updateReactionRates", "tests/validation/pyjacTests/PSRTest/solveChemistry.H:integratedHeat", "tests/validation/pyjacTests/PSRTest/hEqn.H:integratedHeat")
p("The integrator and its settings are those of the dictionary",
  "With the pyJac solver, a run starts only if chemistryProperties has the sub-dictionary odeCoeffs and this names an integrator that exists; otherwise it stops with an error, and no other integrator is taken instead. The integrator is then the named one, all equations have the absolute and relative tolerances of the dictionary (1e-15 and 1e-4 where it has none), and an integration takes at most as many steps as the dictionary says (10000 if it says nothing); digits after the point are cut off, so that with a number of steps below one every integration stops with an error. A case that names seulex_LAPACK with a relative tolerance that is positive or left out has results that do not depend on load balancing, clocks, the order of equal loads and what the work arrays contain. The dictionaries of the pyJac tutorial and of the validation case select seulex_LAPACK with the tolerances they state.",
  "all dictionaries, sets of integrators of OpenFOAM, numbers of equations, steppers, intervals, initial steps, histories, numbers of ranks; exact arithmetic",
  "Concerns all dictionaries, with and without each of the entries, and all runs that follow; a test has one dictionary.",
  "src/ODE_DLB/ODESolvers/ODESolver/ODESolverNew.C:New", OD+":ODESolver", SX+":seulex_LAPACK", OP+":ode_pyJac", "tutorials/multicomponentFluid/shearlayer_DLB_pyJac/constant/chemistryProperties:odeCoeffs", "tests/validation/pyjacTests/PSRTest/testCase/constant/chemistryProperties:odeCoeffs")
p("A case is what its dictionary says, and the settings of the load balancer change none of its results",
  "A run with the pyJac model starts only if chemistryProperties has the sub-dictionaries loadbalancing, refmapping and odeCoeffs (the first two also if neither is wanted), the mapper and the integrator accept theirs, and the mechanism library has as many species as the case. Load balancing is then on and the log off unless the dictionary says otherwise. Two dictionaries that differ in the settings of the load balancer only are either both refused with the same error, or give runs with the same results in every one of any number of time steps, if they name seulex_LAPACK with a relative tolerance that is positive or left out. The dictionary of the pyJac tutorial is accepted with the library of its mechanism, with load balancing, log and mapping on; that of the validation case with load balancing on and mapping off.",
  "all dictionaries, mechanism libraries, linear solvers, flows, numbers of time steps and ranks, clocks, orders of equal loads, contents of the work arrays; exact arithmetic",
  "Concerns all pairs of dictionaries and all runs that follow; a test has a few dictionaries and runs a few steps.",
  LB+"LoadBalancer.H:LoadBalancer", RM+"mixtureFractionRefMapper.H:mixtureFractionRefMapper", LBCM+":loadBalancedChemistryModel", PJ+":loadBalanced_pyJacChemistryModel", OP+":ode_pyJac", "tutorials/multicomponentFluid/shearlayer_DLB_pyJac/constant/chemistryProperties:loadbalancing", "tests/validation/pyjacTests/PSRTest/testCase/constant/chemistryProperties:refmapping")
p("From the dictionary of a case to the reactor that its cells follow",
  "For every shipped mechanism and every chemistryProperties that switches the chemistry on and the mapping off and names seulex_LAPACK, with tolerances that are positive or left out and a number of steps of at least one (or left out), as the one of the pyJac tutorial does but for the mapping: for all solutions of the reactor of chem.cti that stay inside the domain there are a time b, distances r0 and rho and a constant K such that, whatever the settings of the load balancer, the dictionary is accepted, and from every flow that starts at a distance e from the solutions the simulation runs, from the fields that the dictionary gives and with any contents of the work arrays, for all time steps of at most h <= b: each succeeds on all ranks, and the temperature, pressure and mass fractions of every cell are those of its solution up to K (e + (h + 10^-9) t), as long as this is at most rho. Where all species are present, the error is K (e + (h^2 + 10^-9) t). The constants do not depend on the settings of the load balancer.",
  "all shipped mechanisms, dictionaries, solutions inside the domain, numbers of ranks, cells and time steps, orders of equal loads, CPU times, linear solvers that solve regular systems, contents of the work arrays, Jacobian routines that are bounded near the solutions (as that of drm19 is)",
  "Connects the settings that a user writes with the accumulated error of any number of time steps; a test runs one dictionary for a few time steps.",
  LB+"LoadBalancer.H:LoadBalancer", "src/ODE_DLB/ODESolvers/ODESolver/ODESolverNew.C:New", LBCM+":solve", OP+":solve", PJ+":Qdot", SX+":solve", OD+":solve", ME+"*/lib/src/dydt.c:dydt", "tutorials/multicomponentFluid/shearlayer_DLB_pyJac/constant/chemistryProperties:odeCoeffs")
p("What the reaction rates of mapped cells are",
  "With the pyJac model and the repository's integrator, after a time step on any number of ranks, with or without load balancing, all mapped cells of a rank, the reference cell included, have the same reaction rates: the change of the composition of the reference cell in its integration times the density of the reference cell over its time step. The density of the mapped cell has no part in it: with the same time step, its mass fractions change by the ratio of the densities times the change in the reference cell. For every shipped mechanism and every state z of the reference cell inside the domain, there are a time b, a radius d and a constant K such that, for time steps dt of at most b, these rates are the density of the reference cell times the rates of chem.cti in the state z, up to K (dt + 10^-9) times that density; and they are the density of the mapped cell times the rates of chem.cti in its own state y, if this is within d of z, up to K (dt + 10^-9 + |y - z|) times the density of the reference cell plus K times the difference of the densities.",
  "all mechanism libraries (shipped mechanisms for the second part), states inside the domain, flows, numbers of ranks and cells, orders of equal loads, CPU times, tolerances, linear solvers that solve regular systems, contents of the work arrays, chemical time steps that are not too short",
  "Concerns all flows in which cells are mapped and the error for all distances between them; a test compares a few cells of one flow.",
  LBCM+":map", LBCM+":getProblems", LBCM+":updateReactionRate", LBCM+":solveSingle", RM+"mixtureFractionRefMapper.H:temperatureWithinRange", OP+":solve", ME+"*/lib/src/dydt.c:dydt")
