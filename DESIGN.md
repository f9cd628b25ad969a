# DLBFoam: formal model and proofs — design

Source: `/repo` (Aalto-CFD/DLBFoam, pinned commit), C++ on top of OpenFOAM, plus
C code generated by pyJac.  Model and proofs: Lean 4.33.0 + Mathlib, under
`lean/Verif`, built with `lake build` in `/verif/lean`.

## 1. Trusted base

* Lean's kernel, and the standard axioms `propext`, `Classical.choice`,
  `Quot.sound`.  No axiom is added, no `sorry`, no `native_decide`,
  no `bv_decide`.  `Verif/Audit.lean` prints the axioms of every property theorem.
* The data of `chem.cti` and `foam/*` in `Mech/*Data.lean`, `Mech/*Nasa.lean`, `Mech/*Laws.lean`, read by `tools/gen_mechanisms.py`.
* The translation from C++ to the Lean definitions, done by hand (and by
  `tools/gen_mechanisms.py` for the pyJac C files).  Every definition cites the
  file and lines it models and says what was simplified.
* Contracts of code outside the repository, each an explicit hypothesis or a
  parameter of the model, listed in section 3.

## 2. Modelling approach

**Arithmetic.**  `scalar` is a type variable `S`.  The model's functions only
use the operations the C++ code uses (`+ - * /`, `<`, `<=`, constants), through
classes that carry *no laws*.  Therefore structural theorems (who sends to
whom, slices, index bounds, termination, balanced = unbalanced) are proved for
**every** arithmetic, which includes IEEE doubles, with rounding, and NaN.
Quantitative theorems (levelling, conservation, mixture fraction algebra,
extrapolation) are proved for exact arithmetic: `S` an arbitrary linearly
ordered field.  This is said in each theorem's header.  The quantitative
theorems about the load balancer, the ODE driver, the mass fractions and rates and
the mixture fraction are proved a second time for arithmetic with rounding
(C95-C105): `Model/Rounded` defines a floating-point format as a
rounding function on an ordered field (monotone, idempotent, with relative
error `u` and underflow error `eta`, sums without underflow error, Sterbenz'
lemma), and `Fl F` as its numbers; `Model/Binary64` defines rounding to IEEE
binary64 (to nearest, ties to even, gradual underflow), and `Lemmas/Binary64`
proves that it is such a format.  Infinities, NaN and the sign of zero are left
out there, i.e. overflow.

**Undefined behaviour and failures.**  Functions that can index out of range,
dereference an end iterator, call `FatalError`, throw, or loop forever return
`Except Fault _`, with `Fault.ub`, `Fault.fatal`, `Fault.thrown` and
`Fault.outOfFuel`.  Loops take fuel; termination is a theorem ("with at least
this fuel the outcome is not `outOfFuel`"), not an artefact of the definition.

**Parallelism.**  Two levels: (a) a *functional* SPMD semantics (`World`), which
computes what each of the `n` ranks ends up with; (b) an *interleaving*
semantics (`Mpi`) in which every rank runs a program of sends, receives and
collective operations, scheduled arbitrarily.  The theorem for C10 shows that
all schedules of (b) end, in the same number of steps, in the outcome of (a).
For C108 any rank may in addition crash between any two of its steps (`Spec/Crash`): it
stops, and what it contributed to collective operations before stays delivered.

**Nondeterminism.**  CPU times are measured by a clock: an arbitrary oracle.
`std::sort` is unstable: an arbitrary function that returns a permutation (and,
where needed, a sorted one); it is the same function on all ranks since all
ranks run the same binary on the same input.

## 3. What is modelled, what is not

| code | model |
|---|---|
| `loadBalancing/*`: `ChemistryLoad`, `ChemistryProblem`, `ChemistrySolution`, `LoadBalancerBase`, `LoadBalancer`, `SendBuffer`/`RecvBuffer` | `Model/Types`, `Model/LoadBalancer`, `Model/Serial` (`printState`: `Model/Log`); arithmetic with rounding: `Model/Rounded`, `Model/Binary64` |
| `refMapping/*`: `mixtureFraction`, `mixtureFractionRefMapper` | `Model/RefMap` |
| `loadBalancedChemistryModel`: `solve`, `solveSingle`, `solveList`, `solveBuffer`, `updateReactionRates`, `updateReactionRate`, `getProblems`, `map`, the constructor's defaults | `Model/ChemistryModel`, `Model/World` (all ranks), `Model/Mpi` (interleavings) |
| `loadBalanced_pyJacChemistryModel`: constructor, `derivatives`, `jacobian`, `Qdot`, `tc`; `ode_pyJac::solve` | `Model/PyJac` |
| solver objects that keep their work arrays between cells and steps (`cTp_`, the members of `seulex_LAPACK`) | `Model/Stateful` (the functions of `loadBalancedChemistryModel` with a state that is passed from cell to cell) |
| a mechanism library behind the interface of the pyJac model | `Model/ShippedLib`, `Model/ShippedJacobian` |
| `ODE_DLB/ODESolver`: `solve` (both), `normalizeError`, `resize` | `Model/OdeSolver` |
| `ODE_DLB/ODESolver`: the constructor from a dictionary, `New`; the constructor of `ode_pyJac`; `odeCoeffs` of the pyJac tutorial and the validation case | `Model/OdeSelection` (the integrators of OpenFOAM are names only) |
| `chemistryProperties` as a whole: the constructors of `LoadBalancer`, `mixtureFractionRefMapper`, `loadBalancedChemistryModel`, `loadBalanced_pyJacChemistryModel` and `ode_pyJac` in their order; the files of the pyJac tutorial and of the validation case | `Model/CaseDict` (what OpenFOAM's `basicChemistryModel` reads is taken as its documentation says) |
| `ODE_DLB/seulex_LAPACK`: constructor tables, `seul`, `extrapolate`, `resize`, `solve` | `Model/Seulex` |
| `LoadBalancerBase::printState`, the timing in `loadBalancedChemistryModel::solve`, the file `cpu_solve.out`, and how `tutorials/*/shearlayer_DLB*/solve_buffer.py` reads it | `Model/Log` (the words between the numbers and the plotting are left out) |
| `tests/validation/pyjacTests/PSRTest`: `setFractionBasis.H`, `relative_error`, `checkTemperature`, `validatePyjacEnthalpy`, the enthalpy set by `solveChemistry.H` and `hEqn.H`, the status returned by `main` | `Model/Validation` (the mechanism of the test, 85000 lines, and OpenFOAM's equations for the reactor are left out) |
| `tests/validation/pyjacTests/PSRTest/runTests.sh`, `tests/unittests/test.sh`, and their calls in `Allwmake` | `Model/TestScript` (status, files and reports; colours and headings are left out) |
| `DLBmakeChemistrySolver.H`, `chemistrySolver/DLB*ChemistrySolvers.C`, and the selection of models in `basicChemistryModelTemplate.C` | `Model/Registration` (the reductions and reactions that the template also registers are left out) |
| `utilities/mechanisms/{drm19,gri30,yao}`: `lib/src/{rxn_rates,rxn_rates_pres_mod,spec_rates,chem_utils,dydt,mass_mole,mechanism}.c`, `chem.cti`, `foam/{species,thermo}.foam` | `Model/CLang` (syntax and semantics of the fragment of C used), `Model/Mechanism` (the functions and how `dydt` calls them), `Mech/*` (generated: the statements of the sources, and the data of `chem.cti` and `thermo.foam`), `Model/Shipped` |
| the same mechanisms: `eval_conc_rho`, `eval_u`, `eval_cv` of `chem_utils.c`, `sparse_multiplier.c` (not called by the chemistry model) | `Model/MechanismMore`, `Mech/*More` (generated) |
| `utilities/mechanisms/drm19/lib/src/jacob.c`, `jacobs/jacob_{0,1,2,3}.c`: `eval_jacob` | `Model/Jacobian` (how the parts are called), `Mech/Drm19Jacob*` (generated) |
| `utilities/mechanisms/gri30/lib/src/jacob.c`, `jacobs/jacob_{0..8}.c`: the statements of `eval_jacob` on which the temperature column (entries 0 to 52) depends | `Mech/Gri30Jacob*` (generated). Left out: the blocks `partial of rxn .. wrt species`, `eval_jacob_9` and `eval_jacob_10`; `tools/gen_mechanisms.py` asserts that these assign only `jac[k]` with k >= 53, `J_nplusjplus` and locals that no kept statement reads before assigning. Assignments to `*J_nplusone` are moved to the end of their block (asserted not to interfere) |
| `tutorials/multicomponentFluid/shearlayer_DLB/constant/reactionsYao` (included by `chemistryProperties`) | `Mech/YaoTutorial` (generated by `tools/gen_tutorial.py`, which is trusted for the reading of the file), rates in `Spec/FoamReaction`. OpenFOAM's evaluation of the reactions is not in the repository: forward rates are the textbook formulas. The tool asserts that `foam/species.foam` and `foam/thermo.foam` of the tutorial are those of `utilities/mechanisms/yao`. |
| `refmapping` in `constant/chemistryProperties` of both tutorials, with the species, weights and elements of `foam/thermo.foam` | `Model/FoamDict` (`tutorialRefmapping`, `Package.mixFracDict`). |
| the same of `utilities/mechanisms/yao`: `jacob.c`, `jacobs/jacob_{0..6}.c`, the statements on which the entries 0 to 53 depend | `Mech/YaoJacob*` (generated). Left out: as for gri30 |

Exact rational arithmetic for examples is in `Model/Exact`.  Specifications that do not mention the code are in
`Spec/`.  `Lemmas/` has the proofs, `Props/` the property theorems with a concrete case beside each.

Not modelled: OpenFOAM itself (fields, dictionaries, run-time selection, the
bytes of streams), MPI itself (buffers and collectives follow the contract
below), other messages than those of `printState`, the derivatives by the mass fractions in the pyJac Jacobians of gri30 and yao (`lib/src/jacobs/*.c`, `jacob.c`, 75000 and 63000 lines; the statements for their temperature columns and the whole Jacobian of drm19 are modelled), `set_same_initial_conditions` (a stub that exits), the
`CONV` variant of `dydt` (which does not compile, see section 5), LAPACK.

The mechanism sources are translated by `tools/gen_mechanisms.py`, a parser for the fragment of C they use: it is
trusted to produce, statement by statement, what the sources say.  `x op= e` is expanded, declarations without
initialiser are dropped (the variable is uninitialised, reading it is undefined behaviour), array sizes are those of
`mechanism.h` and the callers.  A literal such as `2.016e+00` denotes the exact decimal number.  `exp`, `log`, `log10`,
`pow`, `fmax` are arbitrary functions; where a theorem needs something about them it is an explicit
hypothesis (`CMathLaws`: `exp x > 0`; `pow a x > 0` for `a > 0`).  What the checkers in `Lemmas/` (`checkRates`, `checkSpec`, ...) compute from the
translated sources is evaluated by the kernel (`decide +kernel`) on the whole source, and proved to imply the theorems for all inputs.

Contracts assumed of external code (parameters or hypotheses, never axioms):

| external | contract |
|---|---|
| `Pstream::gatherList/scatterList` | every rank gets the list of all ranks' values, indexed by rank; collective |
| `PstreamBuffers` | `finishedSends` is collective; afterwards each receiver can read what was sent to it, in order per sender; a read without message is a fault |
| `Ostream`/`Istream` | what is written token by token is read back token by token (`Model/Serial`) |
| `std::sort` | returns a permutation, sorted by `<`; the same function on all ranks |
| `std::min_element` etc. | as in the C++ standard |
| `clockTime` | arbitrary values |
| the ODE integrator used by `solveSingle` | a deterministic function of its arguments (shown for the repository's own stepper in C46, C69) |
| LAPACK `dgetrf/dgetrs` | arbitrary deterministic functions; where stated, `dgetrs` solves the factorised system (`LapackContract`: if it is regular; `SolvesCombination`: at least a given combination of its equations), or solves a system with zero right-hand side by zero |
| pyJac's `eval_jacob` behind the interface of the model | arbitrary function, except in C88 (that of drm19); in C72 `JacobianConserves`: its columns conserve the element, as those of the exact derivative do. The shipped Jacobians meet this only up to the rounding of their literals |
| `pow`, `sqrt`, `log10`, `int()` in the stepper | arbitrary; where stated `PowLaws`, `SqrtLaws` (instances for the reals are given) |

## 4. Plan per property

(A = any arithmetic; F = exact arithmetic over an ordered field.)

| id | model | proof plan |
|---|---|---|
| C01 | `getOperations`, `operationsToInfo`, `updateState` on all ranks | A: global plan has pairwise distinct pairs, each position one role; local list = filter; membership transfer |
| C02 | same | A: loop invariant on pointer positions |
| C03 | same | A: same invariant, sort is a permutation of the gathered ranks |
| C04 | `planLoop` with fuel | A: distance of the pointers decreases by one |
| C05 | `countWhile`, `timesToProblemCounts`, `SendBuffer`, `getRemaining` | A: induction on the list of times |
| C06 | `World.balance` | A: flatten blocks, counting |
| C07 | `World.unbalance` | A: from C01, C03, C05 |
| C08 | `World.solve` with active on/off | A: C07 + write-back only reads cell id, rr, deltaTChem |
| C09 | iterate of `World.solve` | A: induction on the history, relational invariant |
| C10 | `Mpi` small-step semantics | A: one-step diamond property, canonical run, uniform length |
| C11 | `countWhile` | A: induction |
| C12 | `planLoop` | F: loop invariant sum |
| C13 | `planLoop` | F: loop invariant: passed positions at the mean up to SMALL |
| C14-C16, C19 | `planLoop` + filter (+ slices) | F: invariants on surplus and deficit |
| C17 | `planLoop` | F: all transfers are zero, filtered |
| C18 | `getOperations` | A: lockstep of local and global loop |
| C20 | token stream model of `operator<<`/`>>` | round trip by induction; conversely, every other stream is refused with a fatal error |
| C21 | `LoadBalancerBase` statistics | induction on lists |
| C22-C29 | `ChemistryModel` | A (minimum: linear order): list induction, frame lemmas |
| C30, C31 | `solveSingle` | F |
| C32-C35 | `MixtureFraction` | F |
| C36-C39 | `OdePyJac`, `PyJacModel` | F / A |
| C40 | `seul`/`solve` with the pyJac model | F: invariant through table, extrapolation |
| C41, C42 | `ODESolver.solve` with an abstract stepper; `History` (`Props/DriverHistory`) | F: loop invariant; induction over the steps left |
| C43 | `normalizeError` | F |
| C44 | `resize` | A |
| C45 | `Seulex.solve` | A: invariant over loop states |
| C46 | `Seulex.solve` | A: bisimulation of two runs with different scratch; negation witness for relTol = 0 |
| C47 | `Seulex.solve` | A |
| C48 | `Seulex.solve`, driver | F: steps below a bound depending on the Jacobian are accepted (maximum norm estimates, Neville table), rejected attempts lower the order or shrink the step by 0.93; outside 200..5000 K negation: invariant of a non-terminating run |
| C49 | `extrapolate` | F: Aitken-Neville and Lagrange interpolation |
| C50 | `seul` | F |
| C51 | constructor tables | recursion + algebra |
| C52, C53, C62 | generated sources | a checker for the linear form computed by `eval_spec_rates`, evaluated by the kernel, lifted to all rates; balance of every reaction |
| C54, C65 | generated sources | the functions are instances of templates (kernel), whose meaning is proved for any number of species |
| C55 | generated masks | full permutation table, lifted to all vectors |
| C56, C57 | `Qdot`, constructor | F / A |
| C58-C61 | `Seulex.solve`, driver | A / F: invariants over attempts, steps and integrations |
| C63, C64 | generated sources | F: abstract interpretation over "constant", "positive constant times monomial", "linear form", ... in the concentrations, proved sound, run by the kernel |
| C66 | generated sources | A: a static definite-assignment and bounds check, proved sound |
| C67, C68 | `dydt` | F: composition of the above; sign of each reaction's contribution |
| C69 | `Model/Stateful` | A: the state does not influence results (C46), hence stateful = stateless run; negation witness for relTol = 0 |
| C70, C71 | `Seulex.solve`, driver | F: invariants through sub-steps, linearity of the extrapolation |
| C72, C73, C74 | everything together | F: composition: C69 reduces the world to cells (C27), C70/C71 to the equations, C52/C67 to the mechanism |
| C75-C79 | generated sources, polynomials of `chem.cti` and `thermo.foam` | F: the polynomial computed by each statement is extracted symbolically (proved sound); comparison of coefficients, and sign of polynomials on intervals by bisection with a Taylor shift and a Horner lower bound (proved sound), run by the kernel |
| C80-C82 | generated sources, rate laws of `chem.cti` | reals: every block is read as coefficient, equilibrium constant, products (proved sound); its numbers are compared with `chem.cti`: logarithms of pre-exponential factors through certified bounds of the exponential function (`Lemmas/ExpBound`), sums of Gibbs energies as linear combinations of `1, ln T, T, ..., T^4, 1/T`; run by the kernel |
| C83 | all of the above, `Spec/Reactor` | reals: `Near` (equal up to a factor `exp(eps)`) is closed under products, quotients and sums (`Lemmas/Near`); Troe's factor is Lipschitz in `lg Pr` (`Lemmas/TroeBound`); the errors of C75, C80-C82 and of the weights are composed along `dydt_full` |
| C84 | generated sources of `eval_jacob` of drm19 | A: the check of C66 for every part of the function, frames for what is not assigned |
| C85 | the same, `Spec/Reactor`, `Spec/Jacobian` | reals: every block of `eval_jacob` is brought into a normal form and compared with what the derivative of its reaction should be (`Lemmas/JacobNF`, `JacobT`, `JacobTroe`, `JacobBlocks`, `JacobParts`, proved sound, run by the kernel); logarithmic derivatives of the reactor equations by calculus (`Lemmas/JacobDeriv`); sizes and errors of all terms (`JacobSlope`, `JacobSizes`, `JacobNear`, `JacobRate`) |
| C86 | the same | reals: the same for the columns of the species (`Lemmas/JacobS`: normal forms of the 20 x 20 entries each block adds to; `JacobEnd`: the part after the reactions; `JacobDerivY`: derivatives along any direction of compositions; `JacobSNear`, `JacobSRate`, `JacobSFull`: sizes and errors) |
| C87 | the same | reals: the weighted sums of the first row (`Lemmas/JacobLast`: `cp_avg`, `working_temp`, the last assignments to `jac[0]`; `JacobEnd`: the first entries of the columns), derivatives of the rate of change of the temperature (`JacobTemp`), errors (`JacobTempNear`) |
| C88 | `pyJacDerivatives`, `pyJacJacobian` with `Package.lib`, `Package.evalJacob` | reals: C83, C85-C87 through the interface of the chemistry model; `Spec/ReactorState` is the reactor for the state vector of the integrator |
| C89 | `callCv`, `callU`, `callEvalConcRho` | ordered field: difference of the extracted polynomials; `eval_conc_rho` is an instance of a template; inverse of `eval_conc` |
| C90 | `callSparseMultiplier` | any arithmetic: all `NSP` rows are instances of the template (whole table, by the kernel) |
| C91 | generated slice of the sources of `eval_jacob` of gri30, `Spec/Reactor`, `Spec/Jacobian` | as C85: all 325 blocks are compared with the derivative of their reaction by the kernel (`Lemmas/CheckGri30Jacob{,T,N}`) |
| C92 | generated slice of the sources of `eval_jacob` of yao, `Spec/Reactor`, `Spec/Jacobian` | as C91, with all 269 blocks (`Lemmas/CheckYaoJacob{,T,N}`); `Lemmas/JacobCentre` bounds the centre of the falloff for its unusual parameters (reaction 91 has `A > 1` and a negative first term) |
| C93 | as C92, with the statements for `jac[0]` | `Lemmas/JacobGroups`: every heat term of the last statements is compared with the template, species by species (kernel, `Lemmas/CheckYaoJacobL`); then as C87 |
| C94 | as C91, with `J_nplusone` and the statements for `jac[0]` | `Lemmas/JacobLastN`: the last of the assignments to `J_nplusone` wins (kernel: it is that of reaction 260); `C94_gri30_not_the_derivative`: in a mixture of N and NH only reaction 195 runs, so that both sides can be computed (`Lemmas/Gri30Nitrogen`) |
| C95 | `runPlan` over `Fl F` | `Lemmas/Rounded{Step,Inv,Plan,Mean,Start}`: the loop invariant of C13 with an error term that grows by the rounding errors of one pairing |
| C96 | `getOperations` over `Fl F` | `Lemmas/RoundedFlow`: sums of the transfers above 0.9 % of the mean, per position; smaller ones are never kept |
| C97 | `splitProblems` over `Fl F` | from C96, with the error of left-to-right sums (`sum_fl`) for the loads and for the blocks of problems |
| C98 | `getOperations` over `Fl F` | from C96; for zero loads all transfers are zero |
| C99 | `runPlan` over `Fl F` | `Lemmas/RoundedTotal`: the total changes by two rounding errors per pairing |
| C100 | `driverSolve` over `Fl F` | `Props/RoundedDriver`: the end test `(x + h - xEnd) xEnd > 0` and the truncation `h = xEnd - x` in rounded arithmetic; from within 3 u of the end the next step is exact (Sterbenz) |
| C101 | `odePyJacSolve` over `Fl F` | rounded sum of non-negative numbers, rounded complement |
| C102 | `solveWorldW` with `pyJacModel` over `Fl F` | `Lemmas/AnyRates`: C69 and C27, which hold in any arithmetic, reduce every cell to one call of the integrator; then C101 and three rounding errors per rate |
| C103 | `mixFracInitialize`, `massFractionToMixtureFraction` over `Fl F` | same sums in the same order; `x - x = 0`, `x / x = 1`, `0 * y = 0` |
| C104 | `mixFracInitialize` over `Fl F` | nine rounding errors are below SMALL; negation for 23 species by evaluation |
| C105 | `runPlan`, `getOperations` over `Fl F` | `Lemmas/RoundedLower`: no transfer is below -0.07 % of the mean; `planned_filter`; C95 |
| C106 | `solveWorld` on any distribution of the cells of a mesh (`Spec/Decomposition`), `runOn`, `runOnW` | `Lemmas/Decomposition`: by C27 a cell that is not mapped carries the solution of its own problem, which does not depend on where it is; induction on the steps; C28 for the returned step |
| C107 | `runOn`, `runOnW` | `Lemmas/Decomposition`: of the old fields only the chemical time steps enter the next step, also with mapping (C24, C27: the reference cell depends on the flow only); `runOn_split` |
| C108 | `startConfig`, `Step` with crashes (`Spec/Crash`) | `Lemmas/MpiCrash`: a run with crashes is one without in which the crashed ranks stop (`crash_sim`); confluence from `step_diamond`; every rank has 3 collective operations per step left or done (`Counts`), and passes one only after all contributed (`Passed`); `historyProg_fails` |
| C109 | `Mech/YaoTutorial` (generated), `Spec/FoamReaction`, `Spec/Reactor` | F: parameters of all 269 reactions compared with those of `chem.cti` by the kernel (`closeReaction`, proved sound); `Near` calculus for rate coefficients and falloff (`Near.harmonic`); Troe's factor is Lipschitz in `lg Pr` and `lg Fc` (`Lemmas/TroeLipschitz`) |
| C110 | `mixFracInitialize`, `massFractionToMixtureFraction`, `shouldMap`; `solveWorldW` with `pyJacModel` | through `bilger` (C34); the coupling function weighs elements only, so its change is a combination of the element balances of C72, up to the difference of the weights of `thermo.foam` and the library (`inverse_close`, `coupling_change`) |
| C111 | `tutorialRefmapping` (`Model/FoamDict`) | F for the data of three species; then C110 and the sign of the coupling numbers |
| C112 | `callRxnRates`, `callPresMod`, `callSpecRates`, `callDydt`; entropy and affinities in `Spec/SecondLaw` | `(a - b)(ln a - ln b) >= 0` with C81; potentials times production rates are affinities times rates of progress (`potential_sum`); derivative of the entropy along `dydt` (`entropy_deriv`, `entropy_production`), compared with the reactor of C83 |
| C113 | `splitProblems` | C19 for the planned loads, `blocks_ge`: a block falls short of its time by less than the next problem, as no rank promises more than it has (C15); lower bound of every distribution: some rank has the mean |
| C114 | `splitProblems` over `Fl F` | C113 with rounding: C105 for the planned loads, `fl_blocks_ge` with the slack of every sender, summed over the senders |
| C115 | `driverSolve`, `seulexSolve`; solutions and Lipschitz constants in `Spec/Convergence` | C49 for every accepted step; each row is within `C d^2` of the tangent (`path_bounds`), the weights of the extrapolation add up to one and their absolute values to at most 205 (`extrapolation_weights`, over all 13 orders); mean value inequality for the solution; errors added up along the run (`chain_error`) |
| C116 | the same | the rows are a linear function of the size of the sub-steps up to `C d^3` (`path_second`), the extrapolation removes the linear term (two rows or more: C49) |
| C117 | `LipschitzNear` around the state of the cell | the mean-rate theorem of C115 for the equations of pyJac, clipping is a contraction, then `world_rates` (C72) for any rank and schedule |
| C118 | `Chemistry.Tube`: a solution of the reactor (`SolvesOn` with `stateRate`) and bounds near it | C115 with a right-hand side that is off by `δ` (`step_error_perturbed`), `δ` from C88; the model of `derivatives` clips negative mass fractions, clipping is a contraction; `world_rates` for the reaction rates |
| C119 | `Chemistry.Interior`: where the rates are locally Lipschitz | `LipAt` is closed under the operations of the rate laws; Picard-Lindelöf (Mathlib) for the clipped equations; a mass fraction at zero does not decrease (`production_of_absent`, barrier), so the solution is one of the reactor; Grönwall (Mathlib) for uniqueness; constants for C118 chosen from the neighbourhood |
| C120 | `Chemistry.mixtureEnthalpy`, `atomsPerMass`, `entropy`; `IntegratedTo`: there is a run with the given result | along solutions of the reactor enthalpy and atoms are constant and entropy rises (derivatives of C119's solution, C112); local Lipschitz continuity carries this to the cell (`carry`); uniqueness of C119 for equilibria |
| C121 | the driver's list of accepted steps, `ReturnsNear`, `dYdt` of chem.cti | the first attempt of a small step is accepted (`columnLoop_small` of C48) with the Jacobian at the start; this discharges the hypotheses of C119 and C120; the solution of the reactor is a straight line up to `dt^2` (mean value inequality) |
| C122 | `subList`, `sendBufferAt`, `getRemaining`, `readAt`, `writeAt`, `getAt` against lists split as `pre ++ b ++ post` | F; the checks were not pinned by other theorems, which only use accesses in range |
| C123 | the driver's list of accepted steps, `ReturnsNear`, `dYdt` of chem.cti; `RootLaws`: the law of roots behind the growth of the steps | `driver_short`, by induction on the steps left: an attempt with a small step is accepted, its error estimates are so small that the suggested step is not smaller, and the state stays in the ball in which this holds; then as C121 |
| C124 | `solveWorldW` returns; rates as in C121 | `C27_step_succeeds_iff` and C69 reduce the step to the integrations of the cells (`C124_returns`), C123 for each of the finitely many cells |
| C125 | bound of `pyJacJacobian drm19Lib` near a state; C123 and C124 for `drm19Lib` | C88 compares each entry with a derivative, which the local Lipschitz constant of the rates bounds; the sizes of its terms are locally Lipschitz continuous (`Lemmas/SlopeLipschitz`), which needs third bodies in every falloff reaction (`drm19_lastIsThirdBody`); negative mass fractions are cut off before the call |
| C126 | `bilger` (C12) of `exactDict`, the inputs as exact numbers; `couplingTerms` bounds the terms | error of the weights (`alpha_near`), induction on the species for the dot products (`dot_near`), then the quotient |
| C127 | `Relaxes`: rate of change and Jacobian of the combination; `distance` from the limit | every row of the table multiplies the distance by `1/(1 + z/n)^n`; for the extrapolated value, orders 1 to 12, `Lemmas/Stability` proves the factor at most `1/(1 + z/2)` for all `z >= 0`: by Bernoulli's inequality for small and large `z`, and in between on a subdivision on which the rows are monotone (`Lemmas/StabilityData`, generated by `tools/gen_stability.py`, evaluated by the kernel); induction over the steps |
| C128 | as C127, with the exact factor `exp (-lam t)` | the power series of `1/(1 + z/n)^n` alternates and its coefficients are polynomials of `1/n` of degree below the power of `z`, so that the extrapolation reproduces the series of `exp (-z)` as far as its degree reaches (`Lemmas/RelaxOrder`); the rest is bounded by the weights; errors add up over the steps, which do not amplify them (C127); for linear systems the same with powers of the matrix and Taylor's theorem for the solution (`Lemmas/LinearOrder`) |
| C129 | `spent`: the meaning of the six columns, in terms of the durations of the calls | the script's splitting into lines and words undoes the writing (`pyLines_calls`, `pySplit_logLine`); the increments of the clock are added up |
| C130 | `Report.sendsTo`, `receivesFrom`, `given`, `kept`: what a message says | C02: no rank is both sender and receiver, so that no transfer is hidden by the order of the branches; C01 and C05 for the agreement and the sums |
| C131 | `moleFractions`, `masses`, `massFractions` of amounts of species; the five comparisons written with absolute values | sums of products are rescaled by induction on the species |
| C132 | `Chemistry.AllPresent`: states inside the domain with all species present; `ReturnsNear` | `path_second` with an inexact right-hand side (`step_error_second_perturbed`); the rate laws are twice continuously differentiable where nothing is clipped (`stateRate_twice`), so their Taylor remainder is quadratic on a ball (`twice_nearby`); the solution of C119 stays in it; the library is within `S / 10^9` (C88) |
| C133 | `TestProgram`, `TestCase`: what the scripts are run on; statuses and reports | each command of the script is a function of the files, the status and the reports; they are composed |
| C134 | `Offers`: solver, method and thermodynamics found in a table | membership and absence of duplicates in the lists; identifiers that are not macros are 0, and names with a common suffix are compared |
| C135 | `mixtureEnthalpy` (C120), sensible enthalpy written as a sum | algebra for the enthalpy; near the state the enthalpy rises with the temperature at a rate bounded from below, as the heat capacity is positive and continuous (`enthalpy_rises`), so that the intermediate value theorem gives the temperature, and C120 its distance from the one returned |
| C136 | a solution given by its derivative (`SolvesOn`, Mathlib's `HasDerivWithinAt`); the flow's equations written as in the validation test (`TakesUp`) | the constants of C119 and C135 hold near every state of the solution, and by compactness of its image uniformly (`tameNear_of_compact`, `heatNear_of_compact`); from each reached state starts an exact solution for a time that does not depend on it (`tube_from`, Picard-Lindelöf), so that the error of one time step is C119's, and the errors of all time steps are added up by Grönwall's inequality (`inexact_equations_from`) and induction over the time steps. Without assumptions on the steps: the short times of C123 are uniform near the solution too (`shortNear_of_compact`), which gives the small steps of the next time step from the error so far (`flow_short`), the success of the whole step (C124) and, by the intermediate value theorem, the temperature of the flow (`C136_simulations_exist`). That the time steps can start from the fields of the one before: `driverLoop` hands out a next step of at least the first one or the whole time (`driver_short`), which the two limits by `deltaTChemMax` keep above any lower bound of both (`world_sub`, `C136_simulation_runs`) |
| C137 | as C136 | the constants of C132 hold near every state of the solution, and by compactness uniformly (`twiceNear_of_compact`); C132 from a state at a distance from the solution (`inexact_second_from`), the errors added up by induction (`errors_add_up`), and the temperature of the flow to second order because its enthalpy is conserved (`flow_temperature_second`). For the simulation, the error of C136 keeps the cells near the solutions, where the steps are short enough for the second order (`flow_second_short`, `first_of_second`) |
| C138 | the flow's equations written as in the validation test (`FlowStep`), for any enthalpies of the species | induction over the time steps with C74 (rates sum to zero), C135 (absolute enthalpy) and C72 (elements) |
| C139 | the dictionary read as in `ODESolver::New` and the constructors; `ValueOf`, `Truncates`, `LimitFits` say what the entries mean | case distinction, C41 (number of steps), C69 (results) |
| C140 | the constructors composed in their order; `SwitchOf`, `ValueOf`, `SameButBalancing` say what the entries mean | case distinction, C35, C111, C139; results by C69 |
| C141 | `Usable`, `StartsNear`, `TimeSteps`, `Simulates` say which dictionaries, flows and time steps are meant and what a simulation is | C139, C140 (settings), C136, C137 (error) |
| C142 | `Mapped`, `IsReference` as in C22 to C24; rates of chem.cti by the specification `dYdt` | C27, C69 (rates of the reference cell), C123 (its integration), Lipschitz bound of the rates |

Findings (properties that are false of the code, proved as negations) are
collected in section 5 as they are established.

## 5. Findings

Where a property a user would expect is false of the code, the negation is proved with a witness, and the property is
stated in its true form.

1. **C24** With a temperature tolerance `<= 0` the reference cell itself is not within tolerance of itself: it is solved twice and
   marked as solved individually (`C24_nonpositive_tolerance`).
2. **C28** The returned minimum ignores the chemical time steps of the reference cell and of mapped cells
   (`C28_not_a_bound_for_mapped_cells`).  Mapped cells get the reference cell's rates whatever their own density and
   time step.  A strongly negative mixture fraction is mapped too: the test is `Z < tolerance`.
   A mapped cell that lacks a species which the reference cell consumes gets a negative mass fraction of it
   (`C138_mapped_cells_can_become_negative`).
3. **C32** Fuel and oxidiser with equal coupling functions are accepted, and the mixture fraction divides by zero
   (`C32_equal_streams_are_accepted`).
4. **C37** The last species is one minus the sum of the others and is negative if the integrator returned more than one
   (`C37_last_species_can_be_negative`).  Also, `max(c, 0)` in `derivatives`/`jacobian` turns a NaN into 0 while the
   argument order of the unpacking `max(0, c)` keeps it.
5. **C46** With a zero relative tolerance the stepper keeps an old Jacobian: the result for a cell depends on the cells solved
   before (`C46_zero_tolerance_remembers`).
6. **C48** The stepper does not terminate for a cell whose temperature is outside (200, 5000] and does not change
   (`C48_frozen_cell_never_returns`), and the temperature check reads `yTemp_[0]`, which is a concentration when the stepper is used with a layout that does
   not start with the temperature: then it never terminates (`C48_original_layout_never_returns`).
7. **C59, C61** The temperature check applies to the sub-steps, not to the extrapolated value.  A step that is neither the first
   nor truncated may grow after a rejected attempt, so that the integration can end beyond the interval; the driver's `last` flag
   is never reset.  After a rejected attempt the Jacobian is recomputed at the modified `y` (line 528).  `int(logTol)` is undefined if both
   tolerances are zero.
8. **C53** Molecular weights in the C sources are decimal roundings; mass is conserved exactly only for the nominal weights, up to
   a relative error of `1e-15` for the literals.  `thermo.foam` differs from the C sources in the last digits.
9. The `CONV` branch of `dydt.c` does not compile in any of the mechanisms (`eval_conc_rho (y[0]rho, ...`, a missing `+`).
10. `foam/reactions.foam` of the mechanisms is empty: all chemistry is in the C library.
11. In floating point the planning loop compares loads with the absolute tolerance `1e-15` s, below the spacing of doubles for loads above 8 s.  It looks as if the loop
    could miss that a sender has reached the mean and go on to the next receiver; it does not: if the sender's surplus is the smaller one, its load is at most
    twice the mean, the subtraction is exact (Sterbenz) and the sender is left with exactly the mean.  Proved in C95 for all loads and all roundings.
12. **C69** Because of finding 5, with a zero relative tolerance switching on load balancing changes the reaction rates
    (`C69_zero_tolerance_balancing_changes_answer`).
13. **C72** Cutting off negative mass fractions after the integration adds atoms of the elements of the species that were negative; it never removes any
    (except of the last species, which is the complement to one).
14. **C83** Troe's formula divides by `n - 0.14 (lg Pr + c)`, which vanishes at one reduced pressure (between `10^1.7` and higher, depending on the
    temperature).  In C the quotient is then infinite and the factor 1, the correct limit; the model over the reals has no infinity (`x / 0 = 0`), so that C83 excludes that point.
15. **C94** `eval_jacob` of gri30 *assigns* `*J_nplusone = ...` for every reaction with N2 (`jacobs/jacob_{4,5,6}.c`, e.g. `jacob_4.c:3678`) where it should accumulate:
    the derivative of the nitrogen row by temperature holds only the last reaction, and `jac[0]` (`jacob.c:370`) is not the derivative of dT/dt (found by comparing all entries with
    finite differences: all others agree, `jac[0]` is off by up to 0.3 %).  Proved: `C94_gri30_not_the_derivative`; what the entry is instead says
    `C94_gri30_temperature_by_temperature_partial`.
16. `eval_jacob` does not write the entries of species that take part in no reaction (argon), but reads them for the temperature row; yao's first
    update of the temperature row is `-=`.  It relies on a zeroed buffer, which `loadBalanced_pyJacChemistryModel` provides (`std::vector<scalar> jac(N*N, 0.0)`).
17. **C104** The setup of the mixture fraction compares sums of doubles with one up to SMALL = 10^-15, four to nine rounding errors.  Streams of up to
    eight species that sum to one as written are always accepted; one with 23 species (0.7, 21 times 0.0136, 0.0144) ends with a fatal error.
18. **C100** In doubles the driver does not always end at exactly the end of the interval: from 0.441 to 0.943 it ends one unit in the last place beyond.
19. **C106** With the reference mapping on, the reaction rates depend on the decomposition of the mesh: reference cells are chosen on each rank (`C106_mapping_depends_on_decomposition`).
20. **C107** A restart reproduces the uninterrupted run only if the chemical time steps are carried over (`C107_time_steps_are_needed`). `cpuTimes_` and `refMap_` are not read at a restart (`NO_READ`), which has no effect on the results. Whether `deltaTChem` is read at a restart is decided in OpenFOAM, outside the repository, and was not checked.
21. **C108** With load balancing no rank finishes a step that fails on some rank. Without it (`active false`) the other ranks do: nothing in `solve` is collective then (`C108_without_balancing_others_finish`).
22. **C109** `reactionsYao` of the tutorial has the reactions of `chem.cti`, but all activation temperatures are about 57 millionths smaller (up to 2.6 K) than `E/R`: presumably another gas constant was used in the conversion. At 1000 K rates differ by up to 0.3 % (0.8 % with falloff is proved); `C109_not_equal` proves that reaction 0 is faster in the tutorial at every temperature. Troe reactions without `T2` have `Tss = 1e15`, which is the same to within rounding.
23. **C111** The mixture fraction of the mapper assumes that cells are blends of the two streams. With a third source of oxygen it is negative for mixtures that can burn: in the tutorials 7 % n-dodecane in oxygen-enriched air is a candidate for mapping (`C111_a_reactive_mixture_is_mapped`), and would get the rates of the reference cell. `shouldMap` tests `Z < tolerance`, not `|Z| < tolerance`.
24. **C113** `getOperations` drops transfers of at most one per cent of the mean, one by one. The imbalance they add up to is not bounded by one per cent but by `n - 1` per cent: a rank with twice the mean and 100 ranks with 99 % of it exchange nothing (`C113_bound_is_attained`, for every `n`).
25. **Unit tests** The test `LoadBalancer getOperations` (tests/unittests/testLoadBalancer.C:79-93) passes `loads[i]` of a list with `i` entries, one past its end, so that it tests less than it seems to. The other checks of the unit tests hold of the model (`Props/UnitTests`, as evidence for the model, not as proofs of properties).
26. **C133** `runTests.sh` pipes the validation program into `tee` and then looks at `$?`, which is the status of `tee`: the validation is always reported as passed (`C133_validation_not_checked`). The second check takes any status 1 for the refusal of the mechanism, although wrong results have the same status (`C133_mismatch_not_told_apart`). `test.sh` ends with the status of its last run, so that failures on two and four processes do not stop `Allwmake` in spite of `set -e` (`C133_failures_not_noticed`).
27. **C134** In `basicChemistryModelTemplate.C` the branch for models other than those of OpenFOAM and DLBFoam is not reached, as `${method}CppTest` is not a macro for them and so equals `chemistryModelCppTest`, which is 0. The generated code includes their header but registers `chemistryModel` (`C134_own_models_not_offered`). The name `loadBalancedChemistryModel` of the class, which is not the name of a method, does reach it.
28. **C142** A mapped cell takes up the rates of the reference cell in kg/m³/s as they are, and these contain the density of the reference cell. Its mass fractions thus change by the ratio of the densities times the change in the reference cell, although both have the same composition and temperature up to the tolerances: the mapper does not compare pressures or densities, so this error does not vanish however small its tolerances are (`C142_mapped_cells_share_their_rates`).

## 6. Mutation tests

`seeded/LOG.jsonl` has one line per seeded bug: the definition edited, the edit, the claim it breaks, the theorems that failed, and the theorems
tightened as a result.  `tools/mutate.py` runs them in a scratch copy, from the list in `tools/mutations.py`.

* A theorem counts as failed if it is missing after the edit or depends on `sorryAx`, which Lean puts in place of a failed proof. A failed helper
  lemma therefore counts for all the theorems that use it.
* Up to M113 everything that depends on the edited module was recompiled. From M114 on only the modules with theorems of the claimed properties
  were, and the modules these import: the list of failed theorems is then not complete.
* A seeded bug with no failed theorem has a note that says why. The notes are in `tools/log_notes.py`.
* `tools/automut.py` makes mechanical edits of the model (an operator, a literal, a constructor). Its results are not in the log. The
  survivors that mattered were added to the list as seeded bugs, with theorems that notice them.

Not all bugs of the list were run, for lack of time: M131, M133, M135, M137, M139, M140, M141, M142, M143, M144, M145, M146, M147, M148, M149, M150, M151, M152, M153, M154, M155, M175, M176, M177, M178, M184, M196, M197, M198, M208, M209, M210, M211, M224, M225, M240 have no line in the log. Most of them edit the mechanisms or the
extrapolation stepper, on which many slow modules depend.
