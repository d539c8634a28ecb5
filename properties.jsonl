{"id": "C01", "title": "SortGibbs returns a descending ordering permutation", "statement": "After SortGibbs(n, gibbs, order), order[0..n) is a permutation of 0..n-1 and gibbs[order[0]] >= gibbs[order[1]] >= ... >= gibbs[order[n-1]]; the contents of order before the call do not matter.", "quantifier": "every phase count n>=0 and every array of real Gibbs energies, including ties", "why_tests_cant": "tests use 2-4 phases with fixed energies; the claim is over all lengths and all real inputs", "anchors": ["singularity-eos/closure/kinetic_phasetransition_utils.hpp:SortGibbs"]}
{"id": "C02", "title": "Kinetic mass-fraction update conserves mass and never produces negative fractions", "statement": "SmallStepMFUpdate writes new mass fractions that are all non-negative, and their sum equals the sum of the input mass fractions except that a phase whose available mass is below KPT_MIN_MASS_FRACTION is emptied; the mass lost is at most (num_phases-1)*1e-10 and is exactly the sum of those sub-threshold masses. Total mass is conserved exactly if and only if no donor reached in order has an available mass strictly between 0 and 1e-10.", "quantifier": "every number of phases, every ordering permutation, every vector of non-negative mass fractions, every time step and every table of log rates", "why_tests_cant": "unit tests check one or two-phase examples; conservation must hold for any number of phases and any rates, including rates that exhaust phases", "anchors": ["singularity-eos/closure/kinetic_phasetransition_methods.hpp:SmallStepMFUpdate"]}
{"id": "C03", "title": "The packed phase-pair table is addressed consistently", "statement": "The rate table filled by LogRatesCGModel, the mass-transfer table filled by SmallStepMFUpdate and the documented index jk=(j+1)(n-1)-(j-1)j/2-k agree: each ordered pair j<k occupies exactly one slot, slots are exactly 0..n(n-1)/2-1, nothing is written outside them, and the from/to label 10*from+to identifies both phases for up to ten phases (and for no more: with eleven two transitions share a label).", "quantifier": "all phase counts n and all pairs j<k<n", "why_tests_cant": "index formulas are only exercised at n=2,3 in tests; an off-by-one may appear only for larger n", "anchors": ["singularity-eos/closure/kinetic_phasetransition_methods.hpp:SmallStepMFUpdate", "singularity-eos/closure/kinetic_phasetransition_models.hpp:LogRatesCGModel"]}
{"id": "C04", "title": "The maximum kinetic time step keeps every single transfer within the phase's mass", "statement": "With log dt <= LogMaxTimeStep, for every donor phase above the mass threshold the amount requested for each receiving phase is at most the donor's mass fraction; LogMaxTimeStep never exceeds 1 and is the largest such value.", "quantifier": "all phase counts, rate tables and mass fractions", "why_tests_cant": "depends on a min over all pairs and skipping depleted phases with the packed index kept in step", "anchors": ["singularity-eos/closure/kinetic_phasetransition_models.hpp:LogMaxTimeStep", "singularity-eos/closure/kinetic_phasetransition_methods.hpp:SmallStepMFUpdate"]}
{"id": "C05", "title": "Robust ratio is total, sign-preserving and never exceeds the true quotient in magnitude", "statement": "robust::ratio(a,b) never divides by zero for any b (including 0), has the sign of a*b (b=0 counts as positive), satisfies |ratio(a,b)|<=|a/b| for b!=0, and its relative deviation from a/b is exactly SMALL/(|b|+SMALL).", "quantifier": "all real a, b", "why_tests_cant": "infinitely many operands; b near or at zero are the interesting ones", "anchors": ["singularity-eos/base/robust_utils.hpp:ratio", "singularity-eos/base/robust_utils.hpp:sgn"]}
{"id": "C06", "title": "Robust clamps stay in their interval", "statement": "make_positive(v) is >= EPS and equals v when v>=EPS; make_bounded(v,lo,hi) is the projection onto [lo+EPS, hi(1-EPS)] whenever that interval is non-empty, is monotone in v, and is strictly inside (lo,hi) when hi>0 (for negative hi it can exceed hi); safe_arg_exp is 0 below the exponent range, infinite above, the exponential (a normal double) in between, and monotone.", "quantifier": "all real arguments and bounds", "why_tests_cant": "clamps must hold for all arguments; negative upper bounds are an unusual case tests do not try", "anchors": ["singularity-eos/base/robust_utils.hpp:make_positive", "singularity-eos/base/robust_utils.hpp:make_bounded", "singularity-eos/base/robust_utils.hpp:safe_arg_exp"]}
{"id": "C07", "title": "Integer powers by repeated squaring equal the mathematical power", "statement": "math_utils::pow<P>(x) equals x^P for every integer P (1/x^|P| for negative P) and the recursion terminates.", "quantifier": "every integer exponent and every real x", "why_tests_cant": "template is instantiated only at small P in tests", "anchors": ["singularity-eos/base/math_utils.hpp:pow"]}
{"id": "C08", "title": "regula_falsi keeps a bracket and returns a point of it", "statement": "If the end points of [a,b], or one of them and the guess, bracket the target, and xtol, ytol are non-negative, then whatever the function the returned root lies in [a,b], at the middle of a final interval inside [a,b] over which f-target still changes sign, so for continuous f the final interval contains a true root; the loop makes at most 1000 iterations; FAIL is returned exactly when the iteration limit is reached or no bracket is found. (With a negative xtol the loop can run for ever.)", "quantifier": "every function, target, interval, guess and tolerance", "why_tests_cant": "tests use a few smooth functions; the bracket invariant must hold for arbitrary functions and iteration histories", "anchors": ["singularity-eos/base/root-finding-1d/root_finding.hpp:regula_falsi", "singularity-eos/base/root-finding-1d/root_finding.hpp:set_bracket", "singularity-eos/base/root-finding-1d/root_finding.hpp:check_bracket"]}
{"id": "C09", "title": "Where the root reported by regula_falsi can be", "statement": "The root reported by regula_falsi(f,target,guess,a,b,...) is in the caller's interval [a,b] if that interval, or the part on either side of the guess, brackets the target, whether or not the search converged. Without a bracket the root is only within [a, max(b, a+31.5(b-a))], and SUCCESS with a root outside [a,b] does happen.", "quantifier": "every function, target and interval", "why_tests_cant": "needs a function without a sign change at the ends but with one outside the interval; the bracket search then samples outside [a,b]", "anchors": ["singularity-eos/base/root-finding-1d/root_finding.hpp:regula_falsi", "singularity-eos/base/root-finding-1d/root_finding.hpp:set_bracket"]}
{"id": "C10", "title": "What SUCCESS from newton_raphson means", "statement": "newton_raphson makes at most 100 iterations; with fail_on_bound_root a SUCCESS result lies in [a,b] and satisfies |f(x)-target|<|ytol*target|; without it SUCCESS means either that, or that the iteration stopped at or beyond an end of the interval (possibly outside it). A target of zero is never reported as found.", "quantifier": "every function/derivative pair, target, interval and guess", "why_tests_cant": "requires adversarial functions and zero targets", "anchors": ["singularity-eos/base/root-finding-1d/root_finding.hpp:newton_raphson"]}
{"id": "C11", "title": "Bisection / findRoot shrink a sign-changing interval and return a point within bounds", "statement": "findRoot's SUCCESS result lies in [xmin,xmax]; the bisection fallback keeps f(a)-y and f(b)-y of opposite sign at every step, halves the interval each step, and performs a bounded number of steps.", "quantifier": "every continuous or discontinuous function, target, bounds and guess", "why_tests_cant": "arbitrary iteration histories", "anchors": ["singularity-eos/base/root-finding-1d/root_finding.hpp:findRoot", "singularity-eos/base/root-finding-1d/root_finding.hpp:bisect", "singularity-eos/base/root-finding-1d/root_finding.hpp:secant"]}
{"id": "C12", "title": "sum_neumaier equals the sum of all entries except the skipped one", "statement": "sum_neumaier(arr,n,iskip) returns the exact sum over all indices other than iskip in exact arithmetic (the compensation never biases the sum).", "quantifier": "every length, array and skip index", "why_tests_cant": "compensated summation branches on magnitudes; only an argument over all orderings of magnitudes shows the compensation is bias-free", "anchors": ["singularity-eos/closure/mixed_cell_models.hpp:sum_neumaier"]}
{"id": "C13", "title": "The density-temperature PTE trial step keeps the total volume fraction", "statement": "For PTESolverRhoT, which promises that volume fractions exactly sum, each TestUpdate leaves the volume fractions summing to the vfrac_total given to the constructor.", "quantifier": "every number of materials, every step and scale, every vfrac_total", "why_tests_cant": "tests use vfrac_total=1", "anchors": ["singularity-eos/closure/mixed_cell_models.hpp:PTESolverRhoT::TestUpdate", "singularity-eos/closure/mixed_cell_models.hpp:EnforceMassVolumesSum"]}
{"id": "C14", "title": "EnforceMassVolumesSum restores the total volume without changing each material's mass", "statement": "After EnforceMassVolumesSum on a state, volume fractions sum to vfrac_total and every material's mass rho_i*vfrac_i is unchanged (up to the SMALL regularisation).", "quantifier": "all numbers of materials and all positive states", "why_tests_cant": "all lengths and values", "anchors": ["singularity-eos/closure/mixed_cell_models.hpp:EnforceMassVolumesSum"]}
{"id": "C15", "title": "EnforceEnergiesSum restores the total energy", "statement": "After EnforceEnergiesSum the mass-weighted internal energies sum to the total.", "quantifier": "all numbers of materials and states with non-zero energy", "why_tests_cant": "all lengths and values", "anchors": ["singularity-eos/closure/mixed_cell_models.hpp:EnforceEnergiesSum"]}
{"id": "C16", "title": "PTE scratch blocks are disjoint and fit the advertised size", "statement": "For each PTE solver, the arrays carved from the caller's scratch are pairwise disjoint, contiguous, and together exactly fill the number of doubles reported by PTESolver*RequiredScratch(nmat).", "quantifier": "every solver and every nmat>=1", "why_tests_cant": "one overlooked block overlaps only for particular nmat", "anchors": ["singularity-eos/closure/mixed_cell_models.hpp:PTESolverRhoTRequiredScratch", "singularity-eos/closure/mixed_cell_models.hpp:PTESolverBase", "singularity-eos/closure/mixed_cell_models.hpp:AssignIncrement"]}
{"id": "C17", "title": "The PTE driver terminates, and accepted or rejected trial steps leave a consistent state", "statement": "PTESolver performs at most the configured number of iterations; a rejected ideal-gas guess leaves the solver state exactly as before; the iterates' error is non-increasing under line search acceptance.", "quantifier": "every solver, every EOS behaviour (arbitrary residual function), every iteration limit", "why_tests_cant": "the loop's history is arbitrary", "anchors": ["singularity-eos/closure/mixed_cell_models.hpp:PTESolver", "singularity-eos/closure/mixed_cell_models.hpp:TryIdealPTE"]}
{"id": "C18", "title": "A converged PTE status means the returned state satisfies the solver's convergence test", "statement": "If PTESolver returns converged=true, the state written back satisfies the solver's own CheckPTE test; with default parameters that means relative residuals below 1e-6 (1e-4 in temperature), and a stalled state is accepted within 100 (10) times that, also for tolerances the user assigns (false: the relaxed tolerances do not follow the assignment).", "quantifier": "every iteration history", "why_tests_cant": "slow-convergence exit occurs only for rare residual histories", "anchors": ["singularity-eos/closure/mixed_cell_models.hpp:PTESolver"]}
{"id": "C19", "title": "PTE residual Jacobian is the derivative of the residual", "statement": "For each PTE solver, the linear system's matrix is minus the Jacobian of the residual with respect to the unknowns, with derivatives taken at points within the finite-difference perturbation of the current state, so the Newton step solves the linearised PTE equations; for the (P,T) solver at a non-zero pressure (at zero pressure its matrix is singular).", "quantifier": "every material count and state, differentiable EOS", "why_tests_cant": "sign and index errors in a row affect convergence only", "anchors": ["singularity-eos/closure/mixed_cell_models.hpp:PTESolverRhoT::Jacobian", "singularity-eos/closure/mixed_cell_models.hpp:PTESolverRhoU::Jacobian"]}
{"id": "C20", "title": "SetVfracFromT never exceeds per-material volume caps when it reports success", "statement": "When SetVfracFromT returns true the volume fractions sum to the total and none exceeds the material's maximum volume fraction at that temperature.", "quantifier": "every number of materials, temperature and caps", "why_tests_cant": "needs three or more materials capped in separate rounds", "anchors": ["singularity-eos/closure/mixed_cell_models.hpp:SetVfracFromT", "singularity-eos/closure/mixed_cell_models.hpp:NormalizeVfrac"]}
{"id": "C21", "title": "The small linear solver solves the system", "statement": "solve_Ax_b_wscr for n=1 and n=2 returns true only with A x = b (up to SMALL), and returns false for a zero row.", "quantifier": "all matrices and right-hand sides", "why_tests_cant": "pivot and row scaling cases", "anchors": ["singularity-eos/closure/mixed_cell_models.hpp:solve_Ax_b_wscr"]}
{"id": "C22", "title": "PTE step limiters keep every bounded quantity in bounds", "statement": "After ScaleDx the scaled step applied to the unknowns keeps each volume fraction in (0,vfrac_total], each density above its minimum and temperature (and pressure) within range.", "quantifier": "all material counts and steps", "why_tests_cant": "index misalignment only appears when a material is skipped", "anchors": ["singularity-eos/closure/mixed_cell_models.hpp:PTESolverRhoT::ScaleDx", "singularity-eos/closure/mixed_cell_models.hpp:PTESolverPT::ScaleDx", "singularity-eos/closure/mixed_cell_models.hpp:PTESolverRhoU::ScaleDx"]}
{"id": "C23", "title": "ApproxTemperatureFromRhoMatU returns a temperature in its search window that brackets the energy", "statement": "The routine returns a temperature in [1e-9,1e9] and keeps the invariant that the total energy at the lower end is <= target <= the energy at the upper end whenever that holds initially.", "quantifier": "every EOS list with monotone energy, every energy", "why_tests_cant": "arbitrary bisection histories", "anchors": ["singularity-eos/closure/mixed_cell_models.hpp:ApproxTemperatureFromRhoMatU"]}
{"id": "C24", "title": "Concurrent cells never share scratch rows in the C interface", "statement": "In get_sg_eos every cell being processed has exclusive use of its scratch row, whatever the schedule.", "quantifier": "every number of cells, threads and every interleaving of starts and finishes", "why_tests_cant": "schedules cannot be enumerated by tests", "anchors": ["singularity-eos/eos/get_sg_eos.cpp:get_sg_eos", "singularity-eos/eos/get_sg_eos_functors.hpp"]}
{"id": "C25", "title": "The C interface's lambda cache does not overlap the PTE solver's arrays", "statement": "In get_sg_eos the per-cell lambda cache and the arrays used by the PTE solver are disjoint and both lie within the allocated scratch row.", "quantifier": "every input mode, material count and number of participating materials", "why_tests_cant": "aliasing only shows for particular nmat/npte combinations and only corrupts values", "anchors": ["singularity-eos/eos/get_sg_eos_functors.hpp", "singularity-eos/eos/get_sg_eos.cpp:get_sg_eos"]}
{"id": "C26", "title": "get_sg_eos restores mass fractions and leaves inputs untouched with mult=0", "statement": "After the final functor the caller's mass fractions are the originals, and quantities that are inputs in the chosen mode are unchanged.", "quantifier": "all modes and states", "why_tests_cant": "all values", "anchors": ["singularity-eos/eos/get_sg_eos_functors.hpp:final_functor"]}
{"id": "C27", "title": "Host initialisation does not modify the caller's modifier parameters", "statement": "init_sg_* called twice with identical arguments creates the same EOS both times.", "quantifier": "all parameter arrays and enable flags", "why_tests_cant": "needs calling twice with the same array and ramp flag 3", "anchors": ["singularity-eos/eos/singularity_eos.cpp:init_sg_IdealGas", "singularity-eos/eos/singularity_eos_init_utils.hpp"]}
{"id": "C28", "title": "ScaledEOS is the wrapped EOS under rho->scale*rho, sie->sie/scale", "statement": "Temperature, pressure, entropy, bulk modulus and Gruneisen queries of ScaledEOS equal the wrapped EOS at scale*rho and sie/scale (entropy times scale), density limits, reference state and P-T derivatives are converted likewise, and Gruneisen parameter and bulk modulus remain the derivatives of the pressure.", "quantifier": "every wrapped EOS, every nonzero scale, all states", "why_tests_cant": "wrapped EOS is arbitrary", "anchors": ["singularity-eos/eos/modifiers/scaled_eos.hpp:ScaledEOS"]}
{"id": "C29", "title": "ShiftedEOS is the wrapped EOS under sie->sie-shift", "statement": "Every ShiftedEOS query equals the wrapped one at shifted energy; inversions round-trip; minimum energy is shifted; shifting by zero is the identity and shifts compose additively.", "quantifier": "every wrapped EOS, shift and state", "why_tests_cant": "wrapped EOS is arbitrary", "anchors": ["singularity-eos/eos/modifiers/shifted_eos.hpp:ShiftedEOS"]}
{"id": "C30", "title": "BilinearRampEOS pressure is the max of ramp and EOS and is continuous", "statement": "The pressure returned is the larger of the ramp and the wrapped pressure; for every accepted parameter set whose mid point is not below r0 the ramp is 0 below r0, non-negative, continuous and non-decreasing, its density query inverts it, and the P-alpha construction passes through its two prescribed points; all other queries are those of the wrapped EOS above the ramp. (CheckParams also accepts mid points below r0, where the ramp drops to a negative pressure.)", "quantifier": "every wrapped EOS, accepted ramp parameters and density", "why_tests_cant": "continuity and max over all real densities", "anchors": ["singularity-eos/eos/modifiers/ramps_eos.hpp:BilinearRampEOS"]}
{"id": "C31", "title": "FlooredEnergy never evaluates below the cold curve and is idempotent", "statement": "Every query by energy through FlooredEnergy equals the wrapped EOS at max(e, MinInternalEnergy(rho)); wrapping twice equals wrapping once; energies above the floor are unaffected.", "quantifier": "every wrapped EOS and state", "why_tests_cant": "wrapped EOS is arbitrary", "anchors": ["singularity-eos/eos/modifiers/floored_energy.hpp:FlooredEnergy"]}
{"id": "C32", "title": "RelativisticEOS bulk modulus is the causal one", "statement": "The bulk modulus returned is max(0, B/|c^2+e+P/rho|), is never negative, implies a sound speed below c whenever the wrapped bulk modulus does not exceed rho times the relativistic enthalpy, by-temperature and by-energy queries agree, and every other query is unchanged.", "quantifier": "every wrapped EOS and state", "why_tests_cant": "all values", "anchors": ["singularity-eos/eos/modifiers/relativistic_eos.hpp:RelativisticEOS"]}
{"id": "C33", "title": "ZSplit electron and ion parts sum to the whole", "statement": "For the same state, the electron-split and ion-split EOS return pressures, energies, heat capacities and bulk moduli that sum to those of the unsplit EOS at ionisation Z; conversions invert each other.", "quantifier": "every wrapped EOS, Z>=0 and state", "why_tests_cant": "all values", "anchors": ["singularity-eos/eos/modifiers/zsplit_eos.hpp:ZSplit"]}
{"id": "C34", "title": "UnitSystem conversions are mutually inverse and consistent", "statement": "An EOS wrapped in UnitSystem gives the wrapped answer converted to the new units for every query, for scalar and vector calls alike; with all units 1 it is the identity.", "quantifier": "every wrapped EOS, unit set and state", "why_tests_cant": "all unit factors", "anchors": ["singularity-eos/eos/modifiers/eos_unitsystem.hpp:UnitSystem"]}
{"id": "C35", "title": "Every EOS produced by the modifier pipeline is a member of the EOS variant", "statement": "Applying shift, scale and ramp in the host interface always yields a type in the variant's type list; the type list has no duplicates and contains each base EOS and each modified one.", "quantifier": "all base EOS types and modifier flags", "why_tests_cant": "type-level combinatorics", "anchors": ["singularity-eos/eos/eos_type_lists.hpp", "singularity-eos/base/variadic_utils.hpp"]}
{"id": "C36", "title": "IdealGas inversions and thermodynamic identities", "statement": "For IdealGas: T(rho,e(rho,T))=T, P(rho,T)=P(rho,e(rho,T)), rho,e from P,T invert, bulk modulus is rho dP/drho at constant entropy, dP/de and heat capacity are derivatives of P and e, FillEos agrees with the individual queries.", "quantifier": "all positive parameters and states", "why_tests_cant": "all real parameters and states", "anchors": ["singularity-eos/eos/eos_ideal.hpp:IdealGas"]}
{"id": "C37", "title": "StiffGas inversions and identities", "statement": "As C36 for StiffGas including the density-temperature from pressure inversion and the pressure-zero floor.", "quantifier": "all positive parameters and states", "why_tests_cant": "all real values", "anchors": ["singularity-eos/eos/eos_stiff.hpp:StiffGas"]}
{"id": "C38", "title": "NobleAbel inversions, identities and FillEos agreement", "statement": "As C36 for NobleAbel; FillEos returns the same bulk modulus as BulkModulusFromDensityInternalEnergy.", "quantifier": "all positive parameters and states", "why_tests_cant": "all real values", "anchors": ["singularity-eos/eos/eos_noble_abel.hpp:NobleAbel"]}
{"id": "C39", "title": "CarnahanStarling is thermodynamically consistent and its density inversion accurate", "statement": "At every positive density below the inverse covolume and every positive temperature, CarnahanStarling's energy, pressure, entropy, heat capacity, Gruneisen parameter and bulk modulus satisfy the thermodynamic laws; for every positive pressure and temperature exactly one density below the inverse covolume has that pressure and the density query, if it does not abort, returns one within 2e-9 of it (with an explicit condition under which it cannot abort); without covolume the density is exact; the energy FillEos computes from density and pressure has that pressure.", "quantifier": "all parameters", "why_tests_cant": "parameters where gm1 != 1", "anchors": ["singularity-eos/eos/eos_carnahan_starling.hpp:CarnahanStarling"]}
{"id": "C40", "title": "JWL inversions and Mie-Gruneisen consistency", "statement": "JWL: temperature and energy invert each other and by-temperature queries equal their by-energy twins at every state; heat capacity, Gruneisen parameter and bulk modulus are the derivatives they are named after and the first law holds (away from the densities where an exponential is cut off); with nonnegative coefficients the pressure rises strictly with density, and the density from pressure and temperature, if the call does not abort, is within max(1e-8, 2e-8/(w Cv T)) of the one that has that pressure in [1e-5,1e3], returned with its energy.", "quantifier": "all parameters and states", "why_tests_cant": "all real values", "anchors": ["singularity-eos/eos/eos_jwl.hpp:JWL"]}
{"id": "C41", "title": "Gruneisen: bulk modulus, inversion and continuity", "statement": "Gruneisen: T/e inversion is exact, P is continuous at rho0, the bulk modulus is rho dP/drho|_s in compression and expansion, and densities above the maximum are treated as the maximum.", "quantifier": "all parameters and states", "why_tests_cant": "derivative identities over all reals", "anchors": ["singularity-eos/eos/eos_gruneisen.hpp:Gruneisen"]}
{"id": "C42", "title": "Gruneisen maximum pressure query returns a pressure consistent with the EOS", "statement": "MaximumPressureAtTemperature(T) equals the pressure at the maximum density and temperature T.", "quantifier": "all parameters and temperatures", "why_tests_cant": "a unit mismatch is invisible unless compared with the pressure query", "anchors": ["singularity-eos/eos/eos_gruneisen.hpp:MaximumPressureAtTemperature"]}
{"id": "C43", "title": "DavisReactants inversions, cold energy and bulk modulus", "statement": "DavisReactants: T/e inversion holds above the minimum energy; T>=0 everywhere and 0 at or below MinInternalEnergy; the reference-isentrope pressure is -dE/dv; bulk modulus is the isentropic derivative.", "quantifier": "all parameters and states", "why_tests_cant": "derivative identities over all reals", "anchors": ["singularity-eos/eos/eos_davis.hpp:DavisReactants"]}
{"id": "C44", "title": "DavisProducts inversions and identities", "statement": "DavisProducts: temperature and energy invert each other and P(rho,T) equals P(rho,e(rho,T)) at every state; heat capacity and Gruneisen parameter are the derivatives they are named after; the reference curve is an isentrope; the first law holds and the bulk modulus is rho dP/drho at constant entropy; the density from pressure and temperature, if the call does not abort, is within max(1e-8, 2e-8/m) of the one in [1e-5,1e3] having that pressure when the chords of the pressure through it rise at rate m, returned with its energy.", "quantifier": "all parameters and states", "why_tests_cant": "real analysis", "anchors": ["singularity-eos/eos/eos_davis.hpp:DavisProducts"]}
{"id": "C45", "title": "MGUsup: both bulk-modulus queries equal the isentropic derivative", "statement": "MGUsup bulk modulus from (rho,e) and from (rho,T) agree and equal rho dP/drho|_s; T/e inversion; P(rho,T)=P(rho,e(rho,T)).", "quantifier": "all parameters and states", "why_tests_cant": "derivative identities over all reals", "anchors": ["singularity-eos/eos/eos_mgusup.hpp:MGUsup"]}
{"id": "C46", "title": "PowerMG: Hugoniot pressure polynomial, bulk modulus and expansion branch", "statement": "PowerMG compression pressure is the polynomial K0*eta*(1+sum K_i eta^i); energy derivative is consistent; bulk modulus is the isentropic derivative in compression and in expansion.", "quantifier": "all parameters, coefficients and states", "why_tests_cant": "derivative identities over all polynomials", "anchors": ["singularity-eos/eos/eos_powermg.hpp:PowerMG"]}
{"id": "C47", "title": "Vinet is thermodynamically consistent", "statement": "Vinet: temperature and energy invert each other at every state; the pressure is the Vinet form with the user's coefficients; energy, pressure and entropy satisfy the first law exactly; heat capacity, Gruneisen parameter, isothermal bulk modulus and expansion coefficient are the derivatives they are named after; the bulk modulus is max(0, rho dP/drho|_s).", "quantifier": "all parameters, expansion coefficients and states", "why_tests_cant": "the coefficient recursion is exercised for one parameter set only", "anchors": ["singularity-eos/eos/eos_vinet.hpp:Vinet"]}
{"id": "C48", "title": "SAP_Polynomial bulk modulus and Gruneisen match its pressure", "statement": "For SAP_Polynomial the Gruneisen parameter is (1/rho) dP/de and the bulk modulus is the isentropic derivative of its pressure.", "quantifier": "all parameters and states", "why_tests_cant": "derivative identities", "anchors": ["singularity-eos/eos/eos_sap_polynomial.hpp:SAP_Polynomial"]}
{"id": "C49", "title": "IdealElectrons scale with ionisation", "statement": "IdealElectrons with ionisation Z behaves as an ideal gas with Z electrons per atom and returns zero pressure and energy for Z=0; T/e inversion for Z>0.", "quantifier": "all Z and states", "why_tests_cant": "all values", "anchors": ["singularity-eos/eos/eos_electrons.hpp:IdealElectrons"]}
{"id": "C50", "title": "Vector calls equal element-wise scalar calls", "statement": "Each vector entry point (with or without scratch, with any indexer) produces in slot i the scalar result for inputs i, and does not touch other slots.", "quantifier": "every EOS, every length, every initial contents of output arrays, any loop order", "why_tests_cant": "length and order are unbounded", "anchors": ["singularity-eos/eos/eos_base.hpp:EosBase"]}
{"id": "C51", "title": "FillEos honours its input/output flags", "statement": "FillEos never modifies quantities flagged as inputs, computes exactly the requested outputs, and fails when the inputs are insufficient.", "quantifier": "every flag combination and state, each EOS", "why_tests_cant": "2^k flags times all states", "anchors": ["singularity-eos/eos/eos_base.hpp", "singularity-eos/eos/eos_ideal.hpp:FillEos", "singularity-eos/eos/eos_mgusup.hpp:FillEos", "singularity-eos/eos/eos_powermg.hpp:FillEos", "singularity-eos/eos/eos_vinet.hpp:FillEos", "singularity-eos/eos/modifiers/ramps_eos.hpp:FillEos", "singularity-eos/eos/modifiers/shifted_eos.hpp:FillEos", "singularity-eos/eos/modifiers/scaled_eos.hpp:FillEos"]}
{"id": "C52", "title": "Energy-from-pressure inversion returns an energy with the requested pressure", "statement": "InternalEnergyFromDensityPressure of the base class returns an energy whose pressure equals the request, choosing a starting guess within the bracket.", "quantifier": "every monotone EOS and pressure", "why_tests_cant": "all EOS", "anchors": ["singularity-eos/eos/eos_base.hpp:InternalEnergyFromDensityPressure"]}
{"id": "C53", "title": "Type-indexed lambda access is by type, never by accident", "statement": "VariadicIndexer/IndexableTypes: writing through a type then reading through the same type returns the value, other types are unaffected; SafeGet returns false and leaves the output untouched when the type is absent; index positions are the first occurrence in the list.", "quantifier": "every type list and every sequence of writes and reads", "why_tests_cant": "all type lists and histories", "anchors": ["singularity-eos/base/indexable_types.hpp", "singularity-eos/base/variadic_utils.hpp"]}
{"id": "C54", "title": "Serialisation round-trips an EOS", "statement": "DeSerialize of the bytes written by Serialize reproduces the EOS: same variant, scalars and table contents, consuming exactly SerializedSizeInBytes bytes and writing nothing else; with shared-memory settings the root fills the block, every process reads its tables (including any the EOS keeps inside helper objects) from the block only.", "quantifier": "every EOS contents and size", "why_tests_cant": "all sizes", "anchors": ["singularity-eos/eos/eos_base.hpp:Serialize", "singularity-eos/eos/eos_base.hpp:DeSerialize", "singularity-eos/eos/eos_variant.hpp"]}
{"id": "C55", "title": "Bulk serialisation of a list of EOS round-trips", "statement": "BulkSerializer DeSerialize reproduces every EOS of the container in order, with or without a shared block, each EOS's tables being read from its own bytes at suitably aligned addresses.", "quantifier": "every list of EOS", "why_tests_cant": "needs two or more dynamic-memory EOS", "anchors": ["singularity-eos/base/serialization_utils.hpp:BulkSerializer"]}
{"id": "C56", "title": "Finalize frees owned memory exactly once", "statement": "For table EOS, any sequence of loading, copies to device, deserialisations and Finalize calls (by GetOnDevice, serialisation or loading, not plain shallow copies, which must not be finalised as well as their original) frees each owned block at most once, never frees memory it does not own, and leaks nothing once every EOS is finalised.", "quantifier": "every sequence of operations", "why_tests_cant": "histories", "anchors": ["singularity-eos/base/spiner_table_utils.hpp:SpinerTricks"]}
{"id": "C57", "title": "Fast logarithm and exponential are inverse, monotone and continuous", "statement": "The not-quite-transcendental log2 and pow2 are exact mutual inverses, strictly increasing, continuous, and agree with log2 at powers of two. Builds whose tables record the same type of logarithm use the same logarithm up to rounding, whatever their other options, and builds with different types do not.", "quantifier": "every positive real, every representable double for the aliased version, every combination of build options", "why_tests_cant": "infinitely many inputs", "anchors": ["singularity-eos/base/fast-math/logs.hpp"]}
{"id": "C58", "title": "Hermite interpolation reproduces nodal data", "statement": "The cubic and quintic Hermite bases reproduce values and derivatives at the nodes, sum to one, and reproduce polynomials of their degree.", "quantifier": "every nodal data and every interval", "why_tests_cant": "all reals", "anchors": ["singularity-eos/base/hermite.hpp"]}
{"id": "C59", "title": "Table transforms are inverse", "statement": "Going to log space and back returns the input plus EPS at or above minus the offset and is strictly increasing there; the identity, cold-curve shift and temperature-scaling energy transforms of Spiner tables invert exactly for every state; the transforms that divide by the heat capacity invert (at a non-zero shifted energy) exactly when the tabulated dT/dE lies in [1e-8,1e8].", "quantifier": "all states", "why_tests_cant": "all reals", "anchors": ["singularity-eos/eos/eos_spiner_sie_transforms.hpp", "singularity-eos/eos/eos_spiner_common.hpp"]}
{"id": "C60", "title": "Piecewise grid bounds contain their anchor and nest properly", "statement": "Table bounds built with an anchor point place a grid point exactly on the anchor, contain the requested range and are ordered; multi-grid bounds are contiguous and monotone.", "quantifier": "all bounds and point counts", "why_tests_cant": "all reals", "anchors": ["singularity-eos/base/spiner_table_utils.hpp:Bounds"]}
{"id": "C61", "title": "What SUCCESS from regula_falsi means", "statement": "When regula_falsi reports SUCCESS for a continuous function, the returned point is within xtol of a true root or both working end residuals are within ytol; and when the chords of f through a root r of the interval all rise (or all fall) at least at rate m>0, SUCCESS from any guess means the returned point is within max(xtol, 2 ytol/m) of r, and SUCCESS is certain when the chord slopes are at most M and (log2(M/m)+2) q < 1000 with (1-m/2M)^q (b-a) <= xtol. (Without such a rate SUCCESS can be reported at a point that is no root.)", "quantifier": "every function, target, interval, guess and tolerances", "why_tests_cant": "the loop exit condition involves arbitrary histories", "anchors": ["singularity-eos/base/root-finding-1d/root_finding.hpp:regula_falsi"]}
{"id": "C62", "title": "The PTE temperature guess respects every material's limits", "statement": "When GetTguess reports no problem the returned temperature is at least the caller's guess and at least every material's MinimumTemperature, densities are rhobar/vfrac and each is at least RhoPmin at the returned temperature.", "quantifier": "every number of materials, every EOS response and initial guess", "why_tests_cant": "the guess loop retries with growing temperatures; any history may occur", "anchors": ["singularity-eos/closure/mixed_cell_models.hpp:GetTguess"]}
{"id": "C63", "title": "Optional per-material outputs follow their own pointer", "statement": "In get_sg_eos each optional per-material output array (bulk modulus, dP/de, heat capacity) is written exactly when the caller passes a non-null pointer for that array.", "quantifier": "every combination of null and non-null pointers", "why_tests_cant": "needs mixed null patterns", "anchors": ["singularity-eos/eos/get_sg_eos.cpp:get_sg_eos"]}
{"id": "C64", "title": "A cell with one non-negligible material gets that material's answer", "statement": "In (rho,e) mode, when exactly one material is above the mass-fraction cutoff the returned temperature and pressure are that material's EOS values at the cell's density and energy.", "quantifier": "every EOS, cutoff and mass-fraction vector", "why_tests_cant": "needs trace materials below the cutoff", "anchors": ["singularity-eos/eos/get_sg_eos_rho_e.cpp:get_sg_eos_rho_e", "singularity-eos/eos/get_sg_eos_functors.hpp:init_functor"]}
{"id": "C65", "title": "Array calls never write past the scratch memory they declare", "statement": "An array query that takes a scratch pointer uses at most the number of bytes that scratch_size declares for that query, and at most max_scratch_size, for every stack of modifiers.", "quantifier": "every stack of modifiers over an EOS with its own scratch needs, every query and length", "why_tests_cant": "an overrun corrupts memory silently and needs the right stack", "anchors": ["singularity-eos/eos/modifiers/shifted_eos.hpp:scratch_size", "singularity-eos/eos/modifiers/floored_energy.hpp:scratch_size", "singularity-eos/eos/modifiers/ramps_eos.hpp:scratch_size", "singularity-eos/eos/eos_eospac.hpp:scratch_size"]}
{"id": "C66", "title": "ScaledEOS energy queries are consistent with its other queries", "statement": "Temperature from the energy returned at (rho,T) is T, the minimum energy is the wrapped minimum in scaled units and the heat capacity is the temperature derivative of the energy.", "quantifier": "every wrapped EOS satisfying those laws, every nonzero scale, all states", "why_tests_cant": "wrapped EOS is arbitrary", "anchors": ["singularity-eos/eos/modifiers/scaled_eos.hpp:ScaledEOS"]}
{"id": "C67", "title": "Density and energy from pressure and temperature survive every modifier", "statement": "If the wrapped EOS's DensityEnergyFromPressureTemperature returns a state with the requested pressure and temperature, so does the modified EOS's, in its own units.", "quantifier": "every wrapped EOS, modifier, parameters and state", "why_tests_cant": "wrapped EOS is arbitrary", "anchors": ["singularity-eos/eos/modifiers/shifted_eos.hpp", "singularity-eos/eos/modifiers/scaled_eos.hpp", "singularity-eos/eos/modifiers/eos_unitsystem.hpp", "singularity-eos/eos/modifiers/zsplit_eos.hpp", "singularity-eos/eos/modifiers/ramps_eos.hpp:DensityEnergyFromPressureTemperature"]}
{"id": "C68", "title": "Energy from density and pressure survives every modifier", "statement": "If the wrapped EOS's InternalEnergyFromDensityPressure returns an energy with the requested pressure, so does the modified EOS's.", "quantifier": "every wrapped EOS, modifier, parameters and state", "why_tests_cant": "wrapped EOS is arbitrary", "anchors": ["singularity-eos/eos/modifiers/shifted_eos.hpp", "singularity-eos/eos/modifiers/scaled_eos.hpp:InternalEnergyFromDensityPressure", "singularity-eos/eos/modifiers/zsplit_eos.hpp:InternalEnergyFromDensityPressure"]}
{"id": "C69", "title": "RelativisticEOS FillEos agrees with the direct queries", "statement": "The bulk modulus returned by FillEos of a RelativisticEOS equals BulkModulusFromDensityTemperature at the same state.", "quantifier": "every wrapped EOS and state", "why_tests_cant": "needs comparing two entry points", "anchors": ["singularity-eos/eos/modifiers/relativistic_eos.hpp:FillEos"]}
{"id": "C70", "title": "BilinearRampEOS derivative queries match its pressure", "statement": "The bulk modulus and Gruneisen parameter of a ramped EOS are the isentropic and energy derivatives of the pressure it returns.", "quantifier": "every wrapped EOS, ramp and state away from the ramp's corners", "why_tests_cant": "derivatives at all states", "anchors": ["singularity-eos/eos/modifiers/ramps_eos.hpp:BulkModulusFromDensityInternalEnergy", "singularity-eos/eos/modifiers/ramps_eos.hpp:GruneisenParamFromDensityInternalEnergy"]}
{"id": "C71", "title": "Vectorised index types address distinct slots", "statement": "Indexing a type-indexed container with MassFractions(m) and MassFractions(n), m different from n, addresses different entries: writing one leaves the other unchanged.", "quantifier": "every container type list and every pair of indices", "why_tests_cant": "needs a container with several entries of a vectorised type", "anchors": ["singularity-eos/base/indexable_types.hpp:VariadicIndexerBase", "singularity-eos/base/indexable_types.hpp:MassFractions"]}
{"id": "C72", "title": "Finite-difference pressure-temperature derivatives are true derivatives at a nearby state", "statement": "When an EOS has no analytic pressure-temperature derivatives, each of dRho/dP|T, dE/dP|T, dRho/dT|P and dE/dT|P returned by the base-class default equals the true partial derivative of the EOS's own density-energy-from-pressure-temperature inversion at a state no further than one step (relative 1e-6 or EPS) away, and does not depend on anything but the state passed in.", "quantifier": "every differentiable inversion, every pressure and temperature of either sign, every lambda", "why_tests_cant": "A test compares a few states to a tolerance; the mean-value statement holds for every inversion and every sign of the pressure.", "anchors": ["singularity-eos/eos/eos_base.hpp:PTDerivativesByFiniteDifferences"]}
{"id": "C73", "title": "Gibbs free energy is consistent with entropy and pressure", "statement": "The Gibbs free energy at (density, temperature) and at (density, energy) agree along e(rho,T), and for an EOS whose entropy is consistent with its heat capacity and pressure, dG = -S dT + dP/rho.", "quantifier": "every EOS whose entropy satisfies the first law, every state", "why_tests_cant": "A thermodynamic identity between functions, quantified over all EOS and states.", "anchors": ["singularity-eos/eos/eos_base.hpp:GibbsFreeEnergyFromDensityTemperature", "singularity-eos/eos/eos_base.hpp:GibbsFreeEnergyFromDensityInternalEnergy"]}
{"id": "C74", "title": "Reference state is consistent with the direct queries", "statement": "The values ValuesAtReferenceState reports (energy, pressure, heat capacity, bulk modulus, dP/dE) equal the corresponding queries at the density and temperature it reports, and dV/dT is the thermal expansion at that state.", "quantifier": "every parameter set", "why_tests_cant": "Two independent code paths (constructor constants and queries) must agree for every parameter set.", "anchors": ["singularity-eos/eos/eos_ideal.hpp:ValuesAtReferenceState", "singularity-eos/eos/eos_stiff.hpp:ValuesAtReferenceState", "singularity-eos/eos/eos_noble_abel.hpp:ValuesAtReferenceState", "singularity-eos/eos/eos_carnahan_starling.hpp:ValuesAtReferenceState", "singularity-eos/eos/eos_jwl.hpp:ValuesAtReferenceState", "singularity-eos/eos/eos_electrons.hpp:ValuesAtReferenceState", "singularity-eos/eos/eos_sap_polynomial.hpp:ValuesAtReferenceState", "singularity-eos/eos/eos_gruneisen.hpp:ValuesAtReferenceState", "singularity-eos/eos/eos_davis.hpp:ValuesAtReferenceState", "singularity-eos/eos/eos_mgusup.hpp:ValuesAtReferenceState", "singularity-eos/eos/eos_powermg.hpp:ValuesAtReferenceState", "singularity-eos/eos/eos_vinet.hpp:ValuesAtReferenceState"]}
{"id": "C75", "title": "Degenerate parameters reduce to the ideal gas", "statement": "StiffGas with zero stiffening and offset, and NobleAbel and CarnahanStarling with zero covolume and offset, answer every query as IdealGas with the same Gruneisen parameter and heat capacity (the entropy for the same reference state, and no entropy offset).", "quantifier": "every state and every heat capacity and Gruneisen parameter", "why_tests_cant": "An identity between two classes on all states.", "anchors": ["singularity-eos/eos/eos_stiff.hpp:StiffGas", "singularity-eos/eos/eos_noble_abel.hpp:NobleAbel", "singularity-eos/eos/eos_carnahan_starling.hpp:CarnahanStarling"]}
{"id": "C76", "title": "The automatically chosen maximum density avoids the singular compression", "statement": "A Gruneisen EOS constructed without a maximum density gets one below the smallest compression in (0,1) at which its reference pressure diverges, or none exactly when there is no such compression; so the reference pressure's denominator is positive at every density the EOS uses.", "quantifier": "every linear, quadratic and cubic shock-velocity fit", "why_tests_cant": "Depends on the position of the roots of an arbitrary cubic.", "anchors": ["singularity-eos/eos/eos_gruneisen.hpp:ComputeRhoMax"]}
{"id": "C77", "title": "Reported Helmholtz derivatives are derivatives and obey the first law", "statement": "In the Helmholtz EOS each component (radiation, ions, degenerate electrons) reports pressure, energy and entropy with derivatives in density, temperature, mean atomic mass and charge. Those derivatives are the true derivatives of the reported values, and T dS/dT = cv, de/drho = (P - T dP/dT)/rho^2, dS/drho = -(dP/dT)/rho^2, inside every table cell for any table contents; the density and composition derivatives of the electron pressure, which come from a second table, are right wherever that table holds D^2 F_DD + 2 D F_D of the free-energy table.", "quantifier": "every state, composition and table", "why_tests_cant": "Derivative identities over all reals and all tables; finite differences only sample them.", "anchors": ["singularity-eos/eos/eos_helmholtz.hpp:HelmRad", "singularity-eos/eos/eos_helmholtz.hpp:HelmIon", "singularity-eos/eos/eos_helmholtz.hpp:HelmElectrons"]}
{"id": "C78", "title": "Helmholtz ion entropy is consistent with the ion heat capacity", "statement": "The temperature derivative of the ion entropy returned by the Helmholtz EOS is the ion heat capacity over the temperature, and its density and composition derivatives are those reported.", "quantifier": "every density, temperature and composition", "why_tests_cant": "An identity of functions; entropies are only tested against stored values.", "anchors": ["singularity-eos/eos/eos_helmholtz.hpp:HelmIon::GetFromDensityTemperature", "singularity-eos/eos/eos_helmholtz.hpp:GetFromDensityLogTemperature_"]}
{"id": "C79", "title": "Coulomb corrections report true derivatives", "statement": "The derivatives reported with the Coulomb corrections of the Helmholtz EOS (plasma parameter, energy, pressure, entropy, cut-off gain) are derivatives of the reported corrections, and both the strong- and the weak-coupling fit are used in their own regime.", "quantifier": "every density, temperature and composition", "why_tests_cant": "Needs derivatives on all states and a reachability argument for a branch.", "anchors": ["singularity-eos/eos/eos_helmholtz.hpp:HelmCoulomb::GetFromDensityTemperature", "singularity-eos/eos/eos_helmholtz.hpp:butterworth"]}
{"id": "C80", "title": "Helmholtz temperature inversion solves for the requested energy", "statement": "TemperatureFromDensityInternalEnergy returns a temperature whose energy is the requested one, whatever the caller's lambda already holds in the log-temperature slot.", "quantifier": "every density, energy, option set and lambda contents", "why_tests_cant": "The round trips of the unit tests reuse the lambda that the forward query filled, so they hold vacuously.", "anchors": ["singularity-eos/eos/eos_helmholtz.hpp:lTFromRhoSie_", "singularity-eos/eos/eos_helmholtz.hpp:TemperatureFromDensityInternalEnergy"]}
{"id": "C81", "title": "The combined Helmholtz EOS answers are mutually consistent", "statement": "The energy-only evaluation used in the root find equals the full evaluation; the bulk modulus is rho dP/drho + T (dP/dT)^2/(rho cv), the Gruneisen parameter (dP/dT)/(rho cv), the heat capacity the temperature derivative of the returned energy, and de/drho = (P - T dP/dT)/rho^2.", "quantifier": "every state, option set and table", "why_tests_cant": "Identities between answers on all states.", "anchors": ["singularity-eos/eos/eos_helmholtz.hpp:GetFromDensityLogTemperature_", "singularity-eos/eos/eos_helmholtz.hpp:ComputeGamma1_", "singularity-eos/eos/eos_helmholtz.hpp:ComputeGamma3_"]}
{"id": "C82", "title": "The density of minimum pressure brackets the pressure inversion of table EOS", "statement": "For table EOS the minimum pressure the EOS reports bounds every table pressure from below; without the vapour-dome option the stored density at each temperature is the lowest density of minimal pressure, or zero when no pressure is non-positive; with it the stored density does not increase with temperature and no two-point pressure slope above it is below the threshold.", "quantifier": "every table, size and threshold", "why_tests_cant": "A statement about all entries of all tables.", "anchors": ["singularity-eos/eos/eos_spiner_common.hpp:SetRhoPMin"]}
{"id": "C83", "title": "Every PTE trial step leaves each material in a state of its own EOS", "statement": "After TestUpdate of any of the five PTE solvers (with exact division), each material's density times volume fraction is its mass, and its specific energy, pressure and energy density are those its own EOS gives at the new temperature (for PT: at the new pressure and temperature; for RhoU: at the new density and energy).", "quantifier": "For every equation of state, number of materials, step, line-search factor and prior state.", "why_tests_cant": "A statement about all materials, EOS and steps.", "anchors": ["singularity-eos/closure/mixed_cell_models.hpp:TestUpdate"]}
{"id": "C84", "title": "Modifiers report mean atomic mass and number consistently with the wrapped EOS", "statement": "Through every modifier MeanAtomicNumber is the wrapped EOS's at the corresponding state, and MeanAtomicMass is such that the number density of atoms rho/MeanAtomicMass is that of the wrapped state (ScaledEOS divides by the scale; the others pass it on, converting the state's units).", "quantifier": "For every wrapped EOS, scale, unit system, density, temperature and lambda.", "why_tests_cant": "A statement about all wrapped EOS and states.", "anchors": ["singularity-eos/eos/modifiers/scaled_eos.hpp:MeanAtomicMassFromDensityTemperature", "singularity-eos/eos/modifiers/eos_unitsystem.hpp:MeanAtomicMassFromDensityTemperature", "singularity-eos/eos/modifiers/shifted_eos.hpp:MeanAtomicMassFromDensityTemperature"]}
{"id": "C85", "title": "Spiner (density, temperature) tables invert the energy", "statement": "For SpinerEOSDependsRhoT, TemperatureFromDensityInternalEnergy followed by a query at that temperature gives the energy, pressure, heat capacity and Gruneisen parameter of the energy query: exactly (up to the shift of the log conversion) above the table's top isotherm; on the table the temperature is within the root-find threshold of one that has exactly the energy asked for; at or below the cold curve the table's lowest temperature is returned and the cold-curve values are reported.", "quantifier": "For every table, density, energy and lambda contents.", "why_tests_cant": "All tables and states; unit tests load one SESAME file and sample it.", "anchors": ["singularity-eos/eos/eos_spiner_rho_temp.hpp:lTFromlRhoSie_", "singularity-eos/eos/eos_spiner_rho_temp.hpp:TemperatureFromDensityInternalEnergy"]}
{"id": "C86", "title": "Spiner (density, temperature) tables invert the pressure", "statement": "For SpinerEOSDependsRhoT, DensityEnergyFromPressureTemperature returns a density whose log is within the root-find threshold of one with exactly the requested pressure at that temperature, for temperatures below, on and above the table.", "quantifier": "For every table, pressure, temperature and lambda contents.", "why_tests_cant": "All tables and states.", "anchors": ["singularity-eos/eos/eos_spiner_rho_temp.hpp:lRhoFromPlT_", "singularity-eos/eos/eos_spiner_common.hpp:prod_interp_1d"]}
{"id": "C87", "title": "Spiner (density, temperature) FillEos agrees with the single queries", "statement": "For SpinerEOSDependsRhoT, each quantity FillEos is asked for is what the corresponding single query returns for the given inputs (density and temperature; density and energy; pressure and temperature; density and pressure), and inputs are not modified.", "quantifier": "For every table, state, lambda contents and set of requested outputs.", "why_tests_cant": "All combinations of flags, states and tables.", "anchors": ["singularity-eos/eos/eos_spiner_rho_temp.hpp:FillEos"]}
{"id": "C88", "title": "Spiner (density, temperature) heat capacity and bulk modulus are positive", "statement": "For SpinerEOSDependsRhoT, specific heats and bulk moduli returned are at least robust::EPS, and every bulk modulus stored on loading is at least robust::EPS and is the isentropic bulk modulus of the tabulated derivatives where these are positive.", "quantifier": "For every table (also with negative or zero derivatives), state and lambda.", "why_tests_cant": "A bound for all tables and states.", "anchors": ["singularity-eos/eos/eos_spiner_rho_temp.hpp:SpecificHeatFromDensityTemperature", "singularity-eos/eos/eos_spiner_rho_temp.hpp:BulkModulusFromDensityInternalEnergy", "singularity-eos/eos/eos_spiner_rho_temp.hpp:fixBulkModulus_"]}
{"id": "C89", "title": "Spiner cold critical temperature", "statement": "The temperature below which the cold curve is used at a density is at least the table's lowest temperature, and is where the isochore's energy last crosses the cold energy upwards.", "quantifier": "For every table, density and number of grid points.", "why_tests_cant": "All tables of all sizes.", "anchors": ["singularity-eos/eos/eos_spiner_rho_temp.hpp:setlTColdCrit_"]}
{"id": "C90", "title": "Spiner (density, temperature) extrapolation continues the table", "statement": "At the top isotherm the ideal-gas extrapolation of SpinerEOSDependsRhoT takes the same energy and pressure as the table.", "quantifier": "For every table and density.", "why_tests_cant": "All tables.", "anchors": ["singularity-eos/eos/eos_spiner_rho_temp.hpp:PressureFromDensityTemperature", "singularity-eos/eos/eos_spiner_rho_temp.hpp:InternalEnergyFromDensityTemperature"]}
{"id": "C91", "title": "The lambda cache of Spiner (density, temperature) tables does not change answers", "statement": "What is in the caller's lambda does not change any answer by temperature nor any answer by energy off the table; on the table, where the isochore rises at least at rate m, two lambdas change the (log) temperature by at most 2 max(thr, 2 thr/m) with thr the root-find threshold.", "quantifier": "For every table, state and pair of lambda contents, i.e. every history of earlier calls.", "why_tests_cant": "Every history of calls.", "anchors": ["singularity-eos/eos/eos_spiner_rho_temp.hpp:lTFromlRhoSie_", "singularity-eos/eos/eos_spiner_rho_temp.hpp:Lambda"]}
{"id": "C92", "title": "Spiner (density, energy) FillEos agrees with the single queries", "statement": "For SpinerEOSDependsRhoSie, each quantity FillEos is asked for is what the corresponding single query returns for the given inputs, and inputs are not modified.", "quantifier": "For every table, energy transform, state, lambda contents and set of requested outputs.", "why_tests_cant": "All combinations of flags, states and tables.", "anchors": ["singularity-eos/eos/eos_spiner_rho_sie.hpp:FillEos"]}
{"id": "C93", "title": "The energy transform of Spiner (density, energy) tables is applied to every query by energy", "statement": "For SpinerEOSDependsRhoSieTransformable every query by energy (temperature, pressure, heat capacity, bulk modulus, Gruneisen parameter, mass fractions) evaluates the tables at the transformed energy, so that mass fractions by energy are those at the temperature of that energy.", "quantifier": "For every table, transform, density and energy.", "why_tests_cant": "All transforms and states; tests use the null transform for these queries.", "anchors": ["singularity-eos/eos/eos_spiner_rho_sie.hpp:interpRhoSie_", "singularity-eos/eos/eos_spiner_rho_sie.hpp:GruneisenParamFromDensityInternalEnergy", "singularity-eos/eos/eos_spiner_rho_sie.hpp:MassFractionsFromDensityInternalEnergy"]}
{"id": "C94", "title": "Spiner (density, energy) tables invert the pressure", "statement": "For SpinerEOSDependsRhoSie, DensityEnergyFromPressureTemperature returns a density whose pressure at that temperature is the requested one: on the table the log density is within robust::EPS of an exact solution; above the pressure of the highest tabulated density the density is the linear extrapolation of the isotherm.", "quantifier": "For every table, pressure, temperature and lambda contents.", "why_tests_cant": "All tables and states.", "anchors": ["singularity-eos/eos/eos_spiner_rho_sie.hpp:lRhoFromPlT_", "singularity-eos/eos/eos_spiner_rho_sie.hpp:DensityEnergyFromPressureTemperature"]}
{"id": "C95", "title": "The reference state of Spiner tables is a state of the EOS", "statement": "ValuesAtReferenceState returns a density and temperature on the table, the energy, pressure, heat capacity, bulk modulus and dP/de of the single queries there, and dv/dT at constant pressure there.", "quantifier": "For every table, normal density and table range.", "why_tests_cant": "All tables, also those that do not contain normal density or room temperature.", "anchors": ["singularity-eos/eos/eos_spiner_rho_sie.hpp:ValuesAtReferenceState", "singularity-eos/eos/eos_spiner_rho_sie.hpp:loadDataboxes_", "singularity-eos/eos/eos_spiner_rho_temp.hpp:ValuesAtReferenceState"]}
{"id": "C96", "title": "sesame2spiner stores the derivatives the table EOS expect", "statement": "At every grid point the tables written by sesame2spiner hold the material's cgs pressure, energy and temperature, dP/drho and dT/drho at constant energy, dE/drho at constant temperature, dP/dE, dT/dE, dE/dT at constant density and the isentropic bulk modulus floored at zero, if EOSPAC returns exact values and derivatives; they satisfy the reciprocity relations.", "quantifier": "For every material (any differentiable functions), grid point and unit conversion.", "why_tests_cant": "Derivative identities for arbitrary functions.", "anchors": ["sesame2spiner/io_eospac.cpp:eosDataOfRhoT", "sesame2spiner/io_eospac.cpp:eosDataOfRhoSie", "eospac-wrapper/eospac_wrapper.hpp:getBulkModulus"]}
{"id": "C97", "title": "StellarCollapse queries by energy are queries by temperature at the inverted temperature", "statement": "For StellarCollapse, every query by density and energy equals the query by density and temperature at the temperature TemperatureFromDensityInternalEnergy reports (the bulk modulus up to the floor only the temperature query has); energies at or below the cold curve give the lowest and those at or above the hot curve the highest tabulated temperature; in between, at the densities and electron fractions of the table, where stored log energies rise at least at rate m along temperature, the temperature found is within max(thr, 2 thr/m) (in log10) of the exact inverse.", "quantifier": "For every table, density, energy, electron fraction and cached temperature.", "why_tests_cant": "All tables, states and histories of the cache.", "anchors": ["singularity-eos/eos/eos_stellar_collapse.hpp:lTFromlRhoSie_", "singularity-eos/eos/eos_stellar_collapse.hpp:TemperatureFromDensityInternalEnergy", "singularity-eos/eos/eos_stellar_collapse.hpp:PressureFromDensityInternalEnergy"]}
{"id": "C98", "title": "The minimum energy of StellarCollapse is the least energy of the table", "statement": "MinInternalEnergyFromDensity is the energy at the lowest tabulated temperature, no energy at a temperature of the table is below it, and none is above the hot curve.", "quantifier": "For every table loaded from a file, density and electron fraction.", "why_tests_cant": "All tables and states.", "anchors": ["singularity-eos/eos/eos_stellar_collapse.hpp:MinInternalEnergyFromDensity", "singularity-eos/eos/eos_stellar_collapse.hpp:computeColdAndHotCurves_"]}
{"id": "C99", "title": "The median filter of StellarCollapse removes exactly the outliers", "statement": "With filter_bmod set, the derivative tables are changed exactly at the entries at least three away from every face that differ from the median of the 7x7x7 entries around them (in the unfiltered table) by more than ten times its magnitude, and there become that median; no entry outside the table is read.", "quantifier": "For every table of every size.", "why_tests_cant": "All tables.", "anchors": ["singularity-eos/eos/eos_stellar_collapse.hpp:medianFilter_", "singularity-eos/eos/eos_stellar_collapse.hpp:fillMedianBuffer_", "singularity-eos/eos/eos_stellar_collapse.hpp:findMedian_"]}
{"id": "C100", "title": "The bulk modulus StellarCollapse computes is the isentropic one", "statement": "The bulk modulus built on loading is rho dP/drho along an isentrope for a pressure with the file's derivatives, and never below robust::EPS.", "quantifier": "For every entry of every table and every pressure and energy function with those derivatives.", "why_tests_cant": "Derivative identity for arbitrary functions.", "anchors": ["singularity-eos/eos/eos_stellar_collapse.hpp:computeBulkModulus_"]}
{"id": "C101", "title": "Re-gridding of a stellarcollapse.org file keeps its values and range", "statement": "At every point of the look-up grid each table returns the file's own interpolation there (log-log for energy and pressure), and the range of validity is the file's, with temperature in K.", "quantifier": "For every file and grid point.", "why_tests_cant": "All files.", "anchors": ["singularity-eos/eos/eos_stellar_collapse.hpp:LoadFromStellarCollapseFile_", "singularity-eos/eos/eos_stellar_collapse.hpp:dataBoxToFastLogs", "singularity-eos/eos/eos_stellar_collapse.hpp:ChemicalPotentialsFromDensityTemperature"]}
{"id": "C102", "title": "StellarCollapse FillEos agrees with the single queries", "statement": "Each quantity FillEos is asked for is what the corresponding single query returns for the given inputs, inputs are not modified, and the call stops exactly when nothing is asked for, the density is, or both temperature and energy are.", "quantifier": "For every table, state, lambda and set of requested outputs.", "why_tests_cant": "All combinations of flags, states and tables.", "anchors": ["singularity-eos/eos/eos_stellar_collapse.hpp:FillEos"]}
{"id": "C103", "title": "The reference state of StellarCollapse is a state of the EOS", "statement": "ValuesAtReferenceState returns a state inside the table, with the energy, pressure, heat capacity, bulk modulus and dP/de of the single queries there and dv/dT at constant pressure.", "quantifier": "For every table.", "why_tests_cant": "All tables.", "anchors": ["singularity-eos/eos/eos_stellar_collapse.hpp:setNormalValues_", "singularity-eos/eos/eos_stellar_collapse.hpp:ValuesAtReferenceState"]}
{"id": "C104", "title": "StellarCollapse tables survive Save and reload", "statement": "An EOS loaded from a stellarcollapse.org file, written with Save and loaded from that file, is the same EOS (every table, curve, size, bound and the energy shift), any number of times.", "quantifier": "For every file, filter setting and number of rounds.", "why_tests_cant": "All tables, any number of rounds.", "anchors": ["singularity-eos/eos/eos_stellar_collapse.hpp:Save", "singularity-eos/eos/eos_stellar_collapse.hpp:LoadFromSP5File_"]}
{"id": "C105", "title": "StellarCollapse inverts the pressure", "statement": "DensityEnergyFromPressureTemperature returns a density with the requested pressure at that temperature (log density within the root-find threshold of an exact solution) and the energy there, or reports failure.", "quantifier": "For every table, pressure, temperature, electron fraction and starting density.", "why_tests_cant": "All tables and states.", "anchors": ["singularity-eos/eos/eos_stellar_collapse.hpp:DensityEnergyFromPressureTemperature"]}
{"id": "C106", "title": "EOSPAC queries are pure: right units, no trace in the library", "statement": "Every scalar query of the EOSPAC class returns the tabulated value (or the named combination of tabulated derivatives) in cgs units, and leaves the conversion options of the EOSPAC tables as after loading; hence after any history of operations every operation answers what it would have answered right after loading.", "quantifier": "For all tables, arguments, contents of uninitialised locals, and all finite histories of operations.", "why_tests_cant": "Histories are unbounded and the state is hidden in an external library.", "anchors": ["singularity-eos/eos/eos_eospac.hpp:TemperatureFromDensityInternalEnergy", "singularity-eos/eos/eos_eospac.hpp:PressureFromDensityInternalEnergy", "singularity-eos/eos/eos_eospac.hpp:MinInternalEnergyFromDensity", "eospac-wrapper/eospac_wrapper.cpp:eosSafeInterpolate"]}
{"id": "C107", "title": "EOSPAC queries from several host threads do not disturb each other", "statement": "When several threads query the same EOSPAC object, every thread gets the answer it would get alone, for every interleaving of their library calls.", "quantifier": "For any number of threads, any operations, any schedule.", "why_tests_cant": "Interleavings are unbounded; races are not reproducible in tests.", "anchors": ["singularity-eos/eos/eos_eospac.hpp:PressureFromDensityInternalEnergy", "singularity-eos/eos/eos_eospac.hpp:MinInternalEnergyFromDensity", "eospac-wrapper/eospac_wrapper.cpp:eosSafeInterpolate"]}
{"id": "C108", "title": "eosSafeInterpolate reports success exactly when the lookup succeeded", "statement": "The Boolean returned by eosSafeInterpolate ('1 for no errors') is true exactly when the table lookup had no error, whatever options and verbosity were passed.", "quantifier": "For all option lists, verbosities and outcomes of the library calls.", "why_tests_cant": "Depends on error behaviour of the external library.", "anchors": ["eospac-wrapper/eospac_wrapper.cpp:eosSafeInterpolate"]}
{"id": "C109", "title": "EOSPAC FillEos agrees with the single queries", "statement": "For each accepted combination of outputs, FillEos stores exactly the requested quantities, each equal to the single query at the state determined by the inputs (density and temperature, pressure and temperature, density and pressure, or density and energy), and leaves the others alone.", "quantifier": "For all tables, states, accepted output combinations and contents of the output-only arguments.", "why_tests_cant": "All combinations, states and stale contents.", "anchors": ["singularity-eos/eos/eos_eospac.hpp:FillEos"]}
{"id": "C110", "title": "EOSPAC table selection is uniform", "statement": "With a table split selected (electron only, ion plus cold) every query is answered from the tables of that part; in particular the minimum energy is a lower bound of the energy.", "quantifier": "For all materials and selections.", "why_tests_cant": "Quantifies over all data files.", "anchors": ["singularity-eos/eos/eos_eospac.hpp:EOSPAC"]}
{"id": "C111", "title": "EOSPAC derivative queries are derivatives of its other queries", "statement": "Where the tables are differentiable and mutually consistent with positive heat capacity, temperature and energy invert each other, by-temperature and by-energy queries agree, heat capacity and Gruneisen parameter are the derivatives they are named after, and the bulk modulus is the isentropic derivative of the pressure clipped at zero.", "quantifier": "For all such tables and states.", "why_tests_cant": "Derivatives at all states.", "anchors": ["singularity-eos/eos/eos_eospac.hpp:FillEos", "singularity-eos/eos/eos_eospac.hpp:GruneisenParamFromDensityTemperature"]}
{"id": "C112", "title": "EOSPAC pressure-temperature derivatives are true derivatives", "statement": "PTDerivativesFromPreferred returns the derivatives by pressure and temperature of density and energy as functions of pressure and temperature.", "quantifier": "For all differentiable tables with dP/drho nonzero and every differentiable local solution of P(rho,T)=P.", "why_tests_cant": "Derivatives at all states.", "anchors": ["singularity-eos/eos/eos_eospac.hpp:PTDerivativesFromPreferred"]}
{"id": "C113", "title": "EOSPAC reference state is a state of the EOS", "statement": "ValuesAtReferenceState reports the normal density, 293 K and the pressure, energy, heat capacity, bulk modulus and dp/de of the queries there, and dv/dT = (dP/dT)/(rho^2 dP/drho).", "quantifier": "For all tables and normal densities.", "why_tests_cant": "Quantifies over all tables.", "anchors": ["singularity-eos/eos/eos_eospac.hpp:EOSPAC", "singularity-eos/eos/eos_eospac.hpp:ValuesAtReferenceState"]}
{"id": "C114", "title": "EOSPAC array calls honour the Transform and stay in their scratch", "statement": "Every array call with scratch writes in slot i the f factor times the scalar answer at the x and y factors times the inputs, writes nothing but the output and the scratch declared by scratch_size, and leaves the library as after loading.", "quantifier": "For all tables, lengths, inputs, prior contents of output and scratch, and transforms with positive factors.", "why_tests_cant": "Lengths and contents are unbounded; buffer overlaps depend on them.", "anchors": ["singularity-eos/eos/eos_eospac.hpp:BulkModulusFromDensityInternalEnergy", "singularity-eos/eos/eos_eospac.hpp:SetUpDensityEnergyScalingOptions", "singularity-eos/eos/eos_eospac.hpp:scratch_size"]}
{"id": "C115", "title": "EOSPAC array FillEos leaves inputs alone and fills what was requested", "statement": "The array FillEos stores in each slot the requested quantities at the state determined by the inputs and leaves the arrays that were not requested alone.", "quantifier": "For all tables, lengths, contents and accepted output combinations.", "why_tests_cant": "All lengths, contents and combinations.", "anchors": ["singularity-eos/eos/eos_eospac.hpp:FillEos"]}
{"id": "C116", "title": "sesame2spiner reads its input decks as written", "statement": "From a set of decks made of blank lines, comments, headers <name> and assignments key = value the tool reads all materials in order, each with the last value assigned to every key and the material number after matid; a material without matid and an unclosed header are rejected; any other line is rejected.", "quantifier": "For all decks: any number of files, lines, materials and keys, any text.", "why_tests_cant": "Decks are unbounded texts.", "anchors": ["sesame2spiner/parser.cpp:parse_file", "sesame2spiner/parser.cpp:add_param", "sesame2spiner/parser.cpp:AddMaterials"]}
{"id": "C117", "title": "sesame2spiner obeys its command line", "statement": "Whatever the order of the arguments, the tool reads the files given, in order, writes to the file after the last -s or materials.sp5, prints metadata if -p is given and uses the highest verbosity asked for; -h prints the help, no file prints the usage; every option is taken as an option.", "quantifier": "For all command lines.", "why_tests_cant": "Command lines are unbounded sequences.", "anchors": ["sesame2spiner/parse_cli.cpp:parseCLI"]}
{"id": "C118", "title": "sesame2spiner writes each material once, under a name of its own", "statement": "Each material number is written exactly once, with the parameters given first, in the order asked for; it is linked under the name of the deck, else that of the library, else material_i, with _2, _3, ... for repeated names; no two materials are linked under the same name.", "quantifier": "For all sets of materials, names and numbers.", "why_tests_cant": "Any number of materials and coincidences of names.", "anchors": ["sesame2spiner/generate_files.cpp:saveAllMaterials"]}
{"id": "C119", "title": "sesame2spiner grids span what the user or the data say", "statement": "The density, temperature and energy grids begin and end where the user said, else at the ends of the data (density and temperature no lower than 1e-8 and 1e-2), shrunk by the user's factor brought into [0,1]; their pieces adjoin; they are refined around the user's centre or the normal density, in the fine region the user gave, and split at the energy of the user's split temperature.", "quantifier": "For all parameter values, data ranges and logarithms.", "why_tests_cant": "Real-valued parameters and arbitrary strings.", "anchors": ["sesame2spiner/generate_files.cpp:getMatBounds"]}
{"id": "C120", "title": "Python array calls are elementwise scalar calls", "statement": "A Python query on arrays stores at every position of the output array the scalar answer for that position's inputs and lambda values, leaves in the lambda array what the scalar query leaves there, and touches no other memory; for any strides, any order of the loop, and in place when earlier points do not overwrite what later ones read. The scalar call uses the lambda array passed. With scratch memory (EOSPAC) the same holds for packed arrays, and others are refused (false in release builds).", "quantifier": "For all queries, lengths, strides, memory contents and overlaps.", "why_tests_cant": "Lengths, strides and overlaps are unbounded.", "anchors": ["python/module.hpp:PyArrayHelper", "python/module.hpp:LambdaHelper", "python/module.hpp:EOS_VEC_FUNC_TMPL", "python/module.hpp:two_params"]}
{"id": "C121", "title": "Python FillEos with keywords and on arrays", "statement": "FillEos(**kwargs) takes the keywords passed as inputs; with output given it computes exactly those quantities from them, and without it the quantities not passed. What was passed and not asked for comes back unchanged. On arrays, FillEos is the scalar FillEos at every point, for any strides, and touches nothing else (false for EOSPAC, which takes strided arrays as packed).", "quantifier": "For all EOS that honour their flags, all sets of keywords and values, all arrays.", "why_tests_cant": "All keyword sets and real values.", "anchors": ["python/module.hpp:eos_class", "example/get_sound_speed_press.py"]}
{"id": "C122", "title": "The Fortran interface reaches the C interface with the same meaning", "statement": "A Fortran query stores the scalar answer of every element in the same element and changes nothing else; materials are numbered from 1 and a query uses the last EOS set for that number; optional arguments have their documented defaults; modifier arrays are not changed, so calls can be repeated; per-material fractions are found where Fortran stores them; finalising leaves a Kokkos started by the host running.", "quantifier": "For all arrays, shapes, lambdas, histories of initialisations and modifier arrays.", "why_tests_cant": "Shapes, histories and contents are unbounded.", "anchors": ["singularity-eos/eos/singularity_eos.f90:get_sg_PressureFromDensityInternalEnergy_f", "singularity-eos/eos/singularity_eos.f90:init_sg_IdealGas_f", "singularity-eos/eos/singularity_eos.f90:init_sg_CarnahanStarling_f", "singularity-eos/eos/singularity_eos.f90:init_sg_eospac_f", "singularity-eos/eos/singularity_eos.f90:get_sg_eos_f", "singularity-eos/eos/singularity_eos.f90:finalize_sg_eos_f", "singularity-eos/eos/singularity_eos.cpp:lambdaIndexer2D"]}
{"id": "C123", "title": "The Helmholtz table file is read as published and reproduced", "statement": "Constructing Helmholtz from a table file succeeds exactly when the file has all the numbers of a table; each number ends up in its own table at its own density and temperature; the grid is the published one; every state is looked up in its own cell; and at the densities and temperatures of the table the electron answers are those of the file. A table of another shape is rejected.", "quantifier": "For all contents of the file, all states, and whatever the memory held before.", "why_tests_cant": "The contents of the file and the states are unbounded; the tests use one file.", "anchors": ["singularity-eos/eos/eos_helmholtz.hpp:HelmUtils::SetTablesFromFile", "singularity-eos/eos/eos_helmholtz.hpp:HelmElectrons::InitDataFile_", "singularity-eos/eos/eos_helmholtz.hpp:HelmElectrons::GetFromDensityTemperature"]}
{"id": "C124", "title": "What sesame2spiner writes is what the Spiner EOS read", "statement": "Every material written by sesame2spiner to an sp5 file can be loaded by SpinerEOSDependsRhoT and SpinerEOSDependsRhoSie, by its number or by its name, and the EOS then has that material's number, offsets, normal density and composition, and tables that hold, at every grid point, the library's value of pressure, energy, temperature, bulk modulus and each derivative in cgs units, of the requested part (total, electrons, ions with cold curve); the mass fractions are each phase's own. A part that was not written, an unknown material, or a file made with another kind of logarithm is refused.", "quantifier": "For all libraries, all lists of materials with their grids, all parts, all sizes of grids and numbers of phases.", "why_tests_cant": "The libraries, lists and grids are unbounded; the tests use a few materials and compare a few points within a tolerance.", "anchors": ["sesame2spiner/io_eospac.cpp:eosDataOfRhoT", "sesame2spiner/io_eospac.cpp:eosDataOfRhoSie", "sesame2spiner/io_eospac.cpp:eosColdCurves", "sesame2spiner/io_eospac.cpp:eosMassFraction", "sesame2spiner/generate_files.cpp:saveMaterial", "sesame2spiner/generate_files.cpp:saveAllMaterials", "singularity-eos/eos/eos_spiner_rho_temp.hpp:loadDataboxes_", "singularity-eos/eos/eos_spiner_rho_sie.hpp:loadDataboxes_"]}
{"id": "C125", "title": "EOSPAC tables get the options asked for and are released", "statement": "eosSafeLoad sets on each table exactly the options requested for its type before loading and reports failures; eosGetMetadata returns the entries of the data file in cgs units and the material name of the comments; the table-existence check is right; a constructed EOSPAC object has its tables loaded; and no metadata request, existence check, tabulation or finalized object leaves tables in the library.", "quantifier": "For all table lists, options, materials, library behaviours (any error at any call) and any sequence of operations.", "why_tests_cant": "The behaviour of the external library, its failures and the history of calls are unbounded.", "anchors": ["eospac-wrapper/eospac_wrapper.cpp:eosSafeLoad", "eospac-wrapper/eospac_wrapper.cpp:eosGetMetadata", "eospac-wrapper/eospac_wrapper.cpp:eosCheckTableExistence", "eospac-wrapper/eospac_wrapper.cpp:getName", "sesame2spiner/io_eospac.cpp:eosColdCurves", "singularity-eos/eos/eos_eospac.hpp:EOSPAC"]}
{"id": "C126", "title": "Modifiers can be stacked and removed through the variant, and names tell the results apart", "statement": "Variant::Modify<M>(args) returns exactly the modifier around the held EOS when the variant has that type and the modifier's constructor accepts the arguments, and stops the program otherwise (it never returns the EOS unmodified); EOSBuilder::is_modifiable predicts which. After any sequence of modifications UnmodifyOnce undoes the last, GetUnmodifiedObject returns the original EOS, IsModified says whether there were any; further UnmodifyOnce calls change nothing. The default variant accepts exactly the sequences shift, scale, ramp with any of them left out, and is closed under removing modifiers. EosType (and EosPyType) differ for different types, however deeply modified, so AvailableEOSs lists every alternative. Every EOS whose modified forms are Python classes is a Python class itself, under its EosPyType (false for Vinet, MGUsup, PowerMG and the (density, energy) tables).", "quantifier": "every variant list, every sequence of modifications, every object", "why_tests_cant": "modifier stacks are unbounded and the accepted sequences are determined by compile-time lists", "anchors": ["singularity-eos/eos/eos_variant.hpp:Modify,UnmodifyOnce,GetUnmodifiedObject,IsModified,AvailableEOSs", "singularity-eos/eos/eos_base.hpp:ModifiedInList,ConditionallyModify,UnmodifyOnce", "singularity-eos/eos/eos_builder.hpp:is_modifiable", "python/module.cpp"]}
{"id": "C127", "title": "Debug builds of the C interface stop exactly on unusable values", "statement": "In a debug build get_sg_eos stops on input exactly when some normalised mass fraction, the pressure, the energy or the specific volume is NaN, infinite, subnormal or within 1e10 of overflow, and on output exactly when, besides that, a quantity that must be positive is not; error_utils::negative_value flags negative values. (It also flags zero: a cold state with temperature, heat capacity or Gruneisen parameter zero stops the program.)", "quantifier": "every cell state, any number of materials, any rounding", "why_tests_cant": "needs every class of double (NaN, infinities, subnormal, nearly overflowing) in every position", "anchors": ["singularity-eos/base/error_utils.hpp", "singularity-eos/eos/get_sg_eos_functors.hpp:check_all_vals"]}
{"id": "C128", "title": "EOSPAC objects survive serialisation, and their tables are released", "statement": "A deserialised EOSPAC object, alone or in a list, in another process, from a private buffer or a shared block, answers every query like the one that was serialised, with the number of bytes announced, new table handles that are the ones it later releases, and no effect on other tables; without a shared block a shared build stops. Each table is destroyed exactly once, as for the other EOS even if an object is finalised twice or has a device copy (violated).", "quantifier": "every library that keeps its packing contract, every object, process state, buffer address, shared block and list length; every program of constructions, deserialisations and finalisations", "why_tests_cant": "a test serialises one material in one process; handles, offsets of later objects in a list and the shared block depend on the history", "anchors": ["singularity-eos/eos/eos_eospac.hpp:EOSPAC::SetDynamicMemory", "singularity-eos/eos/eos_eospac.hpp:EOSPAC::DumpDynamicMemory", "singularity-eos/eos/eos_eospac.hpp:EOSPAC::Finalize", "singularity-eos/base/serialization_utils.hpp:BulkSerializer"]}
{"id": "C129", "title": "Error messages name the EOS and fit their buffer", "statement": "The message of a query that is not enabled is the fixed text with the name of the EOS in it, null terminated, and building it writes nothing outside its buffer, for every name up to the documented length (44 characters; violated: 43 for the minimum energy).", "quantifier": "every name, every content of memory around the buffer, debug and release builds", "why_tests_cant": "tests use the names of the library, and writing one byte past a local array usually goes unnoticed", "anchors": ["singularity-eos/eos/eos_base.hpp:StrCat", "singularity-eos/eos/eos_base.hpp:EntropyIsNotEnabled", "singularity-eos/eos/eos_base.hpp:MinInternalEnergyIsNotEnabled"]}
{"id": "C130", "title": "A PTE solve returns a physical state whatever happens", "statement": "Whatever the equations of state, the linear solver, the tolerances and the outcome (converged, stalled, failed), the arrays a PTE solver returns hold each material's mass, positive volume fractions, a non-negative temperature (common to all materials for RhoT, PT, FixedP), and per material an energy and a pressure that are those of its own EOS at its density and temperature, up to the SMALL guards; PT returns one pressure. Exceptions: RhoT and RhoU may return the pressure handed in if they take no step and the EOS prefers pressure as an input; FixedT leaves the temperature array alone (its temperature is the given one).", "quantifier": "every EOS, material count, parameters, linear solver and iteration history of the five solvers; for RhoU, starting guesses with non-zero pressures and non-zero total energy", "why_tests_cant": "an exit in the middle of a line search, or before the first step, leaves other arrays than a converged solve", "anchors": ["singularity-eos/closure/mixed_cell_models.hpp:PTESolver", "singularity-eos/closure/mixed_cell_models.hpp:PTESolverRhoT::Init", "singularity-eos/closure/mixed_cell_models.hpp:PTESolverBase::Finalize", "singularity-eos/closure/mixed_cell_models.hpp:PTESolverPT::Finalize", "singularity-eos/closure/mixed_cell_models.hpp:PTESolverRhoU::TestUpdate", "singularity-eos/closure/mixed_cell_models.hpp:TryIdealPTE"]}
{"id": "C131", "title": "A converged PTE solve is an equilibrium of the equations of state", "statement": "If a PTE solver reports convergence then, evaluated at the returned densities, energies and temperatures, the materials' EOS pressures (and for RhoU temperatures) agree within the tolerance, and the totals the caller prescribed (volume, energy, temperature or pressure) are met within the tolerance.", "quantifier": "every EOS, material count, parameters, linear solver and iteration history", "why_tests_cant": "the residual the test reads may not belong to the arrays that are returned", "anchors": ["singularity-eos/closure/mixed_cell_models.hpp:PTESolver", "singularity-eos/closure/mixed_cell_models.hpp:CheckPTE", "singularity-eos/closure/mixed_cell_models.hpp:Residual", "singularity-eos/closure/mixed_cell_models.hpp:InitBase", "singularity-eos/closure/mixed_cell_models.hpp:PTESolverRhoU::CheckPTE"]}
{"id": "C132", "title": "A PTE solve does not depend on what its scratch memory held", "statement": "Two PTE solves called with the same material arrays, totals, parameters and normalisation temperature give the same status, iteration counts and material arrays, whatever the scratch memory handed to them contained and whatever the solver object's members held before Init.", "quantifier": "every EOS, material count, parameters, linear solver, and any two contents of scratch memory and unset members", "why_tests_cant": "a test's fresh scratch is usually zero; a dependence on stale memory shows only for some earlier contents", "anchors": ["singularity-eos/closure/mixed_cell_models.hpp:PTESolver", "singularity-eos/closure/mixed_cell_models.hpp:PTESolverBase::InitBase", "singularity-eos/closure/mixed_cell_models.hpp:GetTguess", "singularity-eos/closure/mixed_cell_models.hpp:TryIdealPTE", "singularity-eos/closure/mixed_cell_models.hpp:PTESolverFixedP::Init", "singularity-eos/closure/mixed_cell_models.hpp:uscale", "singularity-eos/closure/mixed_cell_models.hpp:utotal_scale"]}
{"id": "C133", "title": "The compensated summation loses only second-order round-off", "statement": "In binary floating point with rounding to nearest and no overflow, sum_neumaier returns the exact sum of the selected terms up to one rounding of that sum plus at most 3 n^2 u^2 times the sum of absolute values (u the unit round-off, 4 n u <= 1); so up to a million non-negative doubles are summed to a relative error of 2^-52 and integers below 2^53 exactly.", "quantifier": "For every array of floating-point numbers, length, offset, skipped index and tie-breaking rule.", "why_tests_cant": "Rounding errors depend on every bit of every term; tests see a few sums.", "anchors": ["singularity-eos/closure/mixed_cell_models.hpp:sum_neumaier"]}
{"id": "C134", "title": "regula_falsi keeps its root near the interval in floating point", "statement": "With every operation rounded and no overflow or underflow, regula_falsi stops within 1000 iterations and, when the computed residual changes sign over [a,b], reports a root in [a,b] up to the accumulated rounding, (1+5u)^1001-1 times the size of the ends (below 2^-40 of it in double precision), for every function. A run reported as a success ends between two points where the computed residual has opposite signs and whose computed distance is at most 2 xtol or one of whose residuals is at most ytol, or at a point where the computed residual is zero or where the computed secant is one of its own ends. Without rounding it is the regula_falsi of real arithmetic.", "quantifier": "For every function, target, guess, interval with non-negative tolerances and rounding.", "why_tests_cant": "Rounding of the secant point depends on every bit of the residuals; a bad combination is found by one pair of numbers in billions.", "anchors": ["singularity-eos/base/root-finding-1d/root_finding.hpp:regula_falsi", "singularity-eos/base/root-finding-1d/root_finding.hpp:check_bracket"]}
{"id": "C135", "title": "The robust helpers on machine numbers", "statement": "On doubles, with rounding, overflow, infinities and NaN: ratio(a,b) is NaN only if an argument is NaN or both are infinite; it is at most 1 in size when |a|<=|b|; it is the correctly rounded a/b for every b that is not tiny; it is finite for every finite a and b; make_positive is at least EPS unless given NaN; make_bounded is strictly inside its interval.", "quantifier": "For every pair of machine numbers and every rounding to nearest.", "why_tests_cant": "Special values and rounding boundaries are not reached by a finite set of tests.", "anchors": ["singularity-eos/base/robust_utils.hpp:ratio", "singularity-eos/base/robust_utils.hpp:make_positive", "singularity-eos/base/robust_utils.hpp:make_bounded", "singularity-eos/base/robust_utils.hpp:sgn"]}
{"id": "C136", "title": "The residual PTESolver reports is that of the state it returns", "statement": "SolverStatus::residual equals half the sum of the squares of what the solver's equilibrium equations leave over when evaluated on the arrays the solver hands back (energies and pressures in units of the solver's energy scale); it is zero exactly when the equilibrium equations hold.", "quantifier": "every input state, equation of state, linear solver, parameter set with at least one line-search pass, number of materials, and every way the solve can end, for the five solver classes", "why_tests_cant": "tests compare the returned state with a tolerance and never check the reported residual, and a stale one shows only when the reference material changes on the last pass", "anchors": ["singularity-eos/closure/mixed_cell_models.hpp:PTESolver", "singularity-eos/closure/mixed_cell_models.hpp:SolverStatus", "singularity-eos/closure/mixed_cell_models.hpp:ResidualNorm", "singularity-eos/closure/mixed_cell_models.hpp:PTESolverRhoT::Fixup"]}
{"id": "C137", "title": "Ideal gas in machine arithmetic", "statement": "In double precision, with rounding, overflow, infinities and NaN: no ideal gas lookup is negative for any argument; away from underflow and overflow every lookup is the exact value up to a fixed number of roundings (1 for energy and temperature, 2 for the pressure of an energy, 3 of a temperature, 4 and 5 for the bulk modulus); T to e to T and e to T to e return the start up to 2 roundings, density to pressure to density up to 6, pressure to energy to pressure up to 2, both routes to the pressure agree up to 6 and the reference state is consistent; pressure, bulk modulus, temperature and energy are monotone for all machine numbers. Fails: an intermediate overflow gives an infinite or NaN pressure where the exact one is a double; zero pressure and temperature give a NaN density; parameters of zero are accepted and give NaN.", "quantifier": "all roundings to nearest (any tie rule), all machine numbers, all parameters", "why_tests_cant": "errors of the last bit, and NaN, depend on the particular bits of the argument; a test covers finitely many of the 2^64 arguments and usually compares with a loose tolerance", "anchors": ["singularity-eos/eos/eos_ideal.hpp: IdealGas::PressureFromDensityInternalEnergy, TemperatureFromDensityInternalEnergy, DensityEnergyFromPressureTemperature, InternalEnergyFromDensityPressure, IdealGas::IdealGas, MYMAX"]}
{"id": "C138", "title": "Scale and shift modifiers in machine arithmetic", "statement": "In double precision, for any wrapped equation of state: a scaled one receives the scaled density up to one rounding and the scaled energy up to two, and exactly when the scale is a power of two; a density and energy it returned come back to the wrapped one up to three roundings. A shifted one receives the difference up to one rounding, monotonically, and exactly when energy and shift share a power of two; a round trip changes an energy by at most 3 2^-53 (|e|+|shift|). Fails: a shift of 2^60 turns temperature 1 into 0 for an ideal gas; the reported density bounds of a scaled one lie outside the wrapped domain by a rounding.", "quantifier": "all wrapped equations of state, all roundings to nearest, all finite arguments", "why_tests_cant": "rounding depends on the bits of scale, shift and argument; tests use a few and a tolerance", "anchors": ["singularity-eos/eos/modifiers/scaled_eos.hpp: ScaledEOS", "singularity-eos/eos/modifiers/shifted_eos.hpp: ShiftedEOS"]}
{"id": "C139", "title": "The example plug-in EOS", "statement": "For the pressureless Dust plug-in, temperature and energy are inverse, its pressure and heat capacity are consistent with its energy, the temperature is not negative exactly at or above its minimum energy, and FillEos gives the temperature of an energy. Fails: FillEos cannot give the energy of a temperature (it aborts, or returns the energy of a stale temperature), overwrites pressure, bulk modulus and heat capacity unasked, the reference state is consistent only for Cv = 1 and leaves the heat capacity unset, and the entropy is not a potential of the heat capacity.", "quantifier": "all heat capacities, states and output sets", "why_tests_cant": "the laws hold for all reals and output sets, a test covers a few", "anchors": ["example/plugin/dust/dust.hpp: Dust"]}
{"id": "C140", "title": "Arrays seen through index maps", "statement": "Reading or assigning an element of a GenericIndexer, nested to any depth, reads or changes exactly the element of the underlying array that its maps lead to and nothing else; an indexer made from a temporary array works on its own copy and changes no array of the program; a map passed as a variable is read at the time of the access and one passed as a temporary is fixed; filling n elements through maps that do not repeat an element puts the values where the indexer reads them and leaves all other elements alone; indexers that lead to different elements do not disturb each other.", "quantifier": "all nestings of indexers, arrays, pointers, maps, elements and values", "why_tests_cant": "tests use one offset map on one flat array; aliasing and lifetime errors show only for other nestings and maps", "anchors": ["singularity-eos/base/generic_indexer.hpp: GenericIndexer"]}
{"id": "C141", "title": "Kinetic phase transitions in machine arithmetic", "statement": "In double precision with NaN and infinities: SortGibbs returns an ordering of all phases in which none is followed by one with a larger Gibbs energy, NaN ones staying in place; when no exponent is NaN every new mass fraction and transfer of SmallStepMFUpdate is finite and not negative and the total mass is kept up to n(n-1) roundings and KPT_MIN_MASS_FRACTION per phase, even if exp overflows; LogMaxTimeStep is never NaN, at most 1 and at most minus the logarithm of each rate that is a number. Fails: an infinite rate makes the recommended step -inf and with it the mass fractions NaN; with a finite step a phase without mass that receives some and has an infinite rate becomes NaN.", "quantifier": "all roundings to nearest, all library log and exp with the stated special values, all numbers of phases, masses, rates, orders and previous contents", "why_tests_cant": "the bounds hold for all bit patterns and phase counts; a test has a handful of phases and compares with a tolerance that hides a lost phase", "anchors": ["singularity-eos/closure/kinetic_phasetransition_methods.hpp: SmallStepMFUpdate", "singularity-eos/closure/kinetic_phasetransition_models.hpp: LogMaxTimeStep, LogRatesCGModel", "singularity-eos/closure/kinetic_phasetransition_utils.hpp: SortGibbs"]}
{"id": "C142", "title": "Root-finder statistics describe the iterations made", "statement": "The counters a root finder is given hold, after a reset and any sequence of calls, the number of calls that took exactly i iterations in bin i and those that took 14 or more in the last bin; no increment is out of bounds, total() is the number of calls recorded, and a call records nothing only if it never found a bracket (or is a plain bisection). The iteration number recorded is the index of the first iterate at which the method's own stopping rule holds, and the value returned is that iterate.", "quantifier": "every sequence of calls, callable, target, guess, bracket and tolerance", "why_tests_cant": "Ranges over all histories of calls and all callables.", "anchors": ["singularity-eos/base/root-finding-1d/root_finding.hpp:RootCounts", "singularity-eos/base/root-finding-1d/root_finding.hpp:regula_falsi", "singularity-eos/base/root-finding-1d/root_finding.hpp:newton_raphson", "singularity-eos/base/root-finding-1d/root_finding.hpp:secant", "singularity-eos/base/root-finding-1d/root_finding.hpp:findRoot"]}
{"id": "C143", "title": "The example programs do what they say", "statement": "eos_grid fills entry (j, i) of the table it saves with the pressure at density j and temperature i of logarithmic grids with the requested ends, and touches no other memory; map_pt_space reports for each volume fraction either a marked failure or a temperature inside the search interval around which the mixture energy passes the total, with the pressures and residuals at it; pte_2mat starts the solver from volume fractions that sum to one and densities with the given masses, and its tolerances mean what they say; the two loops of get_sound_speed_press agree for every EOS whose FillEos agrees with its queries; no program reads a missing argument. Fails: the host loop of eos_grid has its limits exchanged, so it is right only for square tables and otherwise overruns the table or saves values from behind the temperature array; map_pt_space draws the map down to temperature -1 when every search fails; pte_2mat, map_pt_space and eos_grid accept command lines too short for what they read.", "quantifier": "all grid sizes, EOS functions, masses, energies, volume fractions, array lengths and argument counts", "why_tests_cant": "The programs have no tests; the exchanged loop limits are invisible on square grids.", "anchors": ["example/eos_grid.cpp:main", "example/map_pt_space.cpp:main", "example/pte_2mat.cpp:main", "example/get_sound_speed_press.cpp:PressureSoundSpeedFromDensityEnergyDensity", "example/get_sesame_state.cpp:main", "example/get_spiner_bounds.cpp:main"]}
{"id": "C144", "title": "Stiffened gas in machine arithmetic", "statement": "In double precision, with rounding, overflow, infinities and NaN: for every argument the temperature, bulk modulus and density are at least SMALL, the pressure at least -Pinf, the energy at least q; at fixed density the energy is monotone in the temperature, and temperature, pressure and bulk modulus in the energy (or temperature), up to the infinities. Away from overflow the energy of a temperature is exact up to 5 roundings; temperature, pressure and bulk modulus of an energy are off by a fixed number of roundings of the terms whose difference they are; density and energy of a pressure and temperature are exact up to 4 and 8 roundings; temperature to energy to temperature changes T by at most 66 roundings of e/Cv. Fails: NaN arguments give ordinary numbers (the floors); where Pinf dominates the temperature is lost altogether (rho = Cv = 1, Pinf = 2^60: T = 1 comes back as SMALL).", "quantifier": "all roundings to nearest (any tie rule), all machine numbers, all parameters", "why_tests_cant": "cancellation against Pinf depends on the bits of the argument and the size of the parameters; a test uses a few and a tolerance", "anchors": ["singularity-eos/eos/eos_stiff.hpp: StiffGas::TemperatureFromDensityInternalEnergy, InternalEnergyFromDensityTemperature, PressureFromDensityTemperature, PressureFromDensityInternalEnergy, BulkModulusFromDensityTemperature, BulkModulusFromDensityInternalEnergy, DensityEnergyFromPressureTemperature"]}
{"id": "C145", "title": "Noble-Abel gas in machine arithmetic", "statement": "In double precision, with rounding, overflow, infinities and NaN: for every argument temperature, pressure, bulk modulus and density are at least SMALL and the energy at least q; below the packing limit all lookups are monotone in temperature or energy up to the infinities. The energy is exact up to 2 roundings, the temperature up to 4 of (e-q)/Cv, T to e to T up to 10 roundings of T + q/Cv; pressure, bulk modulus and Grueneisen parameter up to 18, 36 and 6 roundings divided by the free volume 1 - b rho; density of a pressure and temperature up to 4. Fails: NaN arguments give ordinary numbers; beyond the packing limit the pressure is SMALL.", "quantifier": "all roundings to nearest (any tie rule), all machine numbers, all parameters", "why_tests_cant": "the loss near the packing limit depends on the bits of b and the density; a test uses a few and a tolerance", "anchors": ["singularity-eos/eos/eos_noble_abel.hpp: NobleAbel::TemperatureFromDensityInternalEnergy, InternalEnergyFromDensityTemperature, PressureFromDensityTemperature, PressureFromDensityInternalEnergy, BulkModulusFromDensityTemperature, GruneisenParamFromDensityTemperature, DensityEnergyFromPressureTemperature"]}
{"id": "C146", "title": "The root finders on machine numbers", "statement": "On double-precision numbers with rounding, overflow, infinities and NaN, for every function, also one returning NaN or infinities: regula_falsi stops within 1000 iterations if xtol is not negative; a success of regula_falsi, newton_raphson or findRoot means that the computed stopping test held at the returned point (or, for regula_falsi, that it collapsed on a zero or on its own secant), and the roots of newton_raphson and findRoot lie in the bounds; where no operation rounds or overflows (and no divisor vanishes) the finders return exactly what they return in real arithmetic. Fails: regula_falsi never stops for a negative xtol, and reports success where the function is NaN or where the product of the end residuals underflows; findRoot reports success for a function that is NaN everywhere, or NaN at the root; newton_raphson fails for a zero target even at an exact root, and with fail_on_bound_root = false returns an infinite root as a success.", "quantifier": "all functions on machine numbers, all machine-number arguments, all roundings to nearest", "why_tests_cant": "NaN, underflow and collapsed brackets are reached only through particular bits of the residuals; a test tries a few smooth functions", "anchors": ["singularity-eos/base/root-finding-1d/root_finding.hpp: regula_falsi, set_bracket, check_bracket, newton_raphson, findRoot, secant, bisect"]}
{"id": "C147", "title": "The PTE iteration on machine numbers", "statement": "On double-precision numbers with rounding, overflow, infinities and NaN: the PTE driver stops within nmat * pte_max_iter_per_mat iterations whatever NaN or infinity the EOS returns; a converged result without the slow-convergence flag passed the convergence test, and one with it had passed the looser test before its last step; a passed convergence test means that the quantities it looks at are finite (energies and, with two or more materials, pressures for RhoT; volume fractions and energies for PT; volume fractions and pressures for FixedT and FixedP; pressures and temperatures for RhoU); the step fraction of the line search for finite errors is finite and between 1/4 - 2^-51 and 1 + 2^-51; where nothing is rounded and nothing overflows, residuals, tests and driver are the exact ones. Fails: RhoU's test passes with NaN volume fractions and energies; RhoT and FixedT pass with a NaN pressure for one material; a full step with a NaN error, any step after a NaN error, and a NaN step limit are accepted unchecked; an infinite full-step error makes the step fraction NaN; with the default parameters the driver can report convergence of a NaN state reached in its last iteration.", "quantifier": "every rounding to nearest, EOS (NaN and infinities included), parameter set, number of materials and start", "why_tests_cant": "NaN and overflow occur only for states no test visits, and the driver has no test with a failing EOS.", "anchors": ["singularity-eos/closure/mixed_cell_models.hpp:PTESolver", "singularity-eos/closure/mixed_cell_models.hpp:CheckPTE", "singularity-eos/closure/mixed_cell_models.hpp:Residual", "singularity-eos/closure/mixed_cell_models.hpp:ResidualNorm", "singularity-eos/closure/mixed_cell_models.hpp:sum_neumaier"]}
{"id": "C148", "title": "The tabulated ideal gas is an ideal gas", "statement": "A file written by utils/scripts/make_tabulated_ideal_sc.py with any adiabatic index above one, mean molecular weight, grid sizes (two or more) and ranges, read by StellarCollapse with or without its median filter (true logarithms), is an ideal gas at every positive density and temperature and every electron fraction, also outside the range of the table: P = rho k T/mu, e = k T/(mu (gamma-1)), cv = k/(mu (gamma-1)), bulk modulus gamma P (floors apart), with k the reader's own MeV-to-kelvin conversion, within 2e-6 of the script's Boltzmann constant. Temperature from energy is right to 2e-14 in log10 inside the table and clamped to its ends outside; density and energy from pressure and temperature are right for densities of the table whatever positive density comes in; the Gruneisen parameter is never below gamma-1 and exceeds it by at most two grid spacings; the composition is Ye protons and 1-Ye neutrons. Fails: the entropy read is P rho^-gamma, not the entropy of the gas.", "quantifier": "all script arguments with gamma > 1, all table sizes, all positive densities and temperatures, all electron fractions and caches", "why_tests_cant": "The script's table is only used by hand; the reader's regridding, filter and root finding act on every entry and state.", "anchors": ["utils/scripts/make_tabulated_ideal_sc.py", "utils/scripts/units.py:cgs", "singularity-eos/eos/eos_stellar_collapse.hpp:StellarCollapse"]}
{"id": "C149", "title": "A sesame table read by density and temperature says what the file says", "statement": "After SpinerEOSDependsRhoT is constructed from any well-formed file: at the file's grid points the queries return the file's pressure, energy and heat capacity and the bulk modulus of its derivatives; the extrapolation above the table starts from the file's last isotherm and below the cold curve the coefficients are those of the coldest isotherm; energy and temperature, and pressure and density, are inverse to each other on the table when the file's entries rise; the bulk modulus is positive and no pressure is below MinimumPressure(); the bounds reported are those of the table; the reference state, with its expansion coefficient, is a state of the EOS inside the table (fails for the expansion coefficient, which has the slope of the pressure at constant energy); the mass fractions are as many as the file's phases, add up to one and lie between zero and one; and the mass fraction queries write only to the lambda cells the class asks for.", "quantifier": "all files (any piecewise grids and entries), all densities, temperatures, energies, pressures, all cache contents", "why_tests_cant": "The tables are unbounded data and every query interpolates between them; tests read one or two materials at a few states.", "anchors": ["singularity-eos/eos/eos_spiner_rho_temp.hpp:loadDataboxes_", "singularity-eos/eos/eos_spiner_rho_temp.hpp:fixBulkModulus_", "singularity-eos/eos/eos_spiner_rho_temp.hpp:MassFractionsFromDensityTemperature", "singularity-eos/eos/eos_spiner_rho_temp.hpp:MassFractionsFromDensityInternalEnergy", "singularity-eos/eos/eos_spiner_rho_temp.hpp:ValuesAtReferenceState"]}
{"id": "C150", "title": "From EOSPAC through sesame2spiner and the file to the EOS", "statement": "Every material that sesame2spiner writes (any number of materials with distinct numbers and names), loaded into SpinerEOSDependsRhoT by number or name, whole or part, answers at the points of the table with what EOSPAC said there in cgs units: pressure, energy, heat capacity and mass fractions, exactly where the log of the argument is the grid point and within the table's rates times the library's shift of the log at the point itself; where EOSPAC's derivatives are consistent, the isentropic bulk modulus and the Grueneisen coefficient are those of EOSPAC; the least energy and the pressure below it are EOSPAC's cold curve; the bounds are the first and last points; and from EOSPAC's energy at a point the EOS finds that point's temperature to the tolerance.", "quantifier": "all EOSPAC libraries, all lists of materials, all grids and grid points, all cache contents", "why_tests_cant": "It composes the writer, the file, the reader and the interpolation; a test compares a few states of one material, and needs EOSPAC.", "anchors": ["sesame2spiner/io_eospac.cpp:eosDataOfRhoT", "sesame2spiner/generate_files.cpp:saveMaterial", "singularity-eos/eos/eos_spiner_rho_temp.hpp:loadDataboxes_", "singularity-eos/base/spiner_table_utils.hpp:Bounds"]}
{"id": "C151", "title": "From EOSPAC through sesame2spiner and the file to the EOS by density and energy", "statement": "Every material that sesame2spiner writes, loaded into SpinerEOSDependsRhoSie by number or name, whole or part, answers at the points of its two tables with what EOSPAC said there in cgs units: by temperature pressure, energy, heat capacity and mass fractions, by energy temperature and pressure, and, where EOSPAC's derivatives are consistent, heat capacity, isentropic bulk modulus and Grueneisen coefficient by either; exactly where the log of the argument is the grid point, within the table's rates times the library's shift of the log at the point itself. Between two energies of the table the temperature is between EOSPAC's at these. The least energy is EOSPAC's cold curve, the bounds are the first and last points, the reference state is what the queries say at the normal density and room temperature, and above the table the density from pressure is the linear extrapolation. This should hold with every energy transform; it fails for ShiftTransform, since the tables are read at the transformed energy but written by energy.", "quantifier": "all EOSPAC libraries, all lists of materials, all grids and grid points, all energies inside the table", "why_tests_cant": "It composes the writer, the file, the reader and the interpolation; a test compares a few states of one material, and needs EOSPAC.", "anchors": ["sesame2spiner/io_eospac.cpp:eosDataOfRhoSie", "sesame2spiner/generate_files.cpp:saveMaterial", "singularity-eos/eos/eos_spiner_rho_sie.hpp:loadDataboxes_", "singularity-eos/eos/eos_spiner_sie_transforms.hpp:ShiftTransform"]}
{"id": "C152", "title": "A call of get_sg_eos answers the listed cells and nothing else", "statement": "get_sg_eos computes each listed cell from that cell's inputs only and changes no other cell, whatever the schedule, the number of threads, the order of the list, what scratch memory held and whether the device has its own memory; repeating the call changes nothing; only EOS named by the caller are used; exactly the documented modes are accepted; failures are reported in the return value.", "quantifier": "For all arrays, offset lists, EOS, PTE solver results, modes, interleavings and device kinds.", "why_tests_cant": "Schedules, stale scratch contents and all arrays; a test sees one run.", "anchors": ["singularity-eos/eos/get_sg_eos.cpp:get_sg_eos", "singularity-eos/eos/get_sg_eos_functors.hpp:init_functor", "singularity-eos/eos/get_sg_eos_rho_t.cpp", "singularity-eos/eos/get_sg_eos_rho_p.cpp", "singularity-eos/eos/get_sg_eos_rho_e.cpp", "singularity-eos/eos/get_sg_eos_p_t.cpp"]}
{"id": "C153", "title": "Construction stops on unusable parameters and only on those", "statement": "An EOS object, plain or inside any stack of modifiers, is constructed if its parameters are usable (finite, positive where the EOS divides by them or takes a logarithm, a scale other than zero, a ramp with different slopes, ...), and otherwise the constructor stops the program with a message, so that an object in hand is ready for use; a modifier also checks everything beneath it. The converse half fails: zero specific heats and Gruneisen parameters are accepted, NaN passes the tests of some models, one model's constructors never run their check, some tests exist in debug builds only, and one modifier has no check.", "quantifier": "all parameter values including NaN and infinities, all models and all finite stacks of modifiers, debug and release builds, every rounding to nearest", "why_tests_cant": "the parameter space is unbounded in every coordinate and includes special values; stacks are of any depth; aborting constructors are rarely exercised in tests", "anchors": ["singularity-eos/eos/eos_ideal.hpp CheckParams", "singularity-eos/eos/eos_gruneisen.hpp CheckParams", "singularity-eos/eos/eos_mgusup.hpp CheckParams", "singularity-eos/eos/modifiers/scaled_eos.hpp CheckParams", "singularity-eos/eos/modifiers/ramps_eos.hpp CheckParams", "singularity-eos/eos/modifiers/floored_energy.hpp FlooredEnergy", "doc/sphinx/src/using-eos.rst CheckParams"]}
{"id": "C154", "title": "An EOS built from C, Fortran or Python has the parameters given under their documented names", "statement": "Whether an EOS is built with the C++ constructor, an init_sg_* function of the C interface (with or without modifier arrays), its Fortran counterpart or the Python class, and whether arguments are passed by position or (Fortran, Python) partly by keyword in any order, every documented parameter of the resulting object has the value given under its name, and parameters the interface does not take have their documented defaults; a call with too many, unknown, repeated or missing arguments is an error.", "quantifier": "all 13 EOS types of the C interface, all parameter values, all splits into positional and keyword arguments and all keyword orders", "why_tests_cant": "argument values are unbounded and the number of keyword orders is factorial in the number of parameters; a swap of two parameters in one layer is invisible in tests that use symmetric or default values", "anchors": ["singularity-eos/eos/singularity_eos.cpp init_sg_*", "singularity-eos/eos/singularity_eos.f90 init_sg_*_f", "python/module.cpp", "doc/sphinx/src/models.rst"]}
{"id": "C155", "title": "A Variant behaves as the EOS it holds", "statement": "Every scalar call of a Variant is the held EOS's function of the same name with the same arguments in the same order, an omitted lambda being a null pointer. Every array call, written in any of the supported ways (with or without execution space, scratch memory and lambdas; raw pointers or other arrays; output equal to an input), resolves to exactly one overload and gives element i of the output the held EOS's scalar answer for elements i of the inputs and lambda i, for every i below num, changing nothing else; the same for the minimum energy and FillEos. A Variant holds the EOS last assigned: IsType, get and the functor evaluators agree on it.", "quantifier": "all held EOS, all functions, all call styles, all lengths (also zero or negative), arrays, lambdas and memory contents", "why_tests_cant": "the number of combinations of function, overload, EOS type and array contents is unbounded; a swapped pair of arguments in one of over a hundred forwarding functions is only seen by a test of that very overload", "anchors": ["singularity-eos/eos/eos_variant.hpp Variant", "singularity-eos/eos/eos_base.hpp SG_EOS_VEC_2IN_1OUT, MinInternalEnergyFromDensity, FillEos", "doc/sphinx/src/using-eos.rst"]}
{"id": "C156", "title": "Helmholtz queries agree with each other, whatever was asked before", "statement": "For the Helmholtz EOS: FillEos aborts exactly when there is no lambda, density is requested, or both temperature and energy are; otherwise it sets the requested outputs to the answers of the corresponding direct queries and changes nothing else. Every query by density and energy is the query by density and temperature at the temperature TemperatureFromDensityInternalEnergy returns. Answers do not depend on what was asked before through the same lambda. The reference state consists of direct answers, including the thermal expansion. DensityEnergyFromPressureTemperature returns the density with the requested pressure within its tolerance, and the energy there.", "quantifier": "all tables, options, compositions, states, requested outputs, contents of uninitialised memory, and all sequences of earlier calls", "why_tests_cant": "the answer must be independent of an unbounded history of earlier calls that share the caller's cache; tests call each query on a fresh lambda or right after its own inverse", "anchors": ["singularity-eos/eos/eos_helmholtz.hpp Helmholtz::FillEos, lTFromRhoSie_, GetFromDensityTemperature_, GetFromDensityInternalEnergy_, ValuesAtReferenceState, DensityEnergyFromPressureTemperature"]}
{"id": "C157", "title": "StellarCollapse answers do not depend on what was asked before through the same lambda", "statement": "For the StellarCollapse EOS: a call without a lambda aborts and otherwise every answer is for the electron fraction in it. After any sequence of calls through one lambda, a call made with a temperature (queries, composition, FillEos, density from pressure and temperature) or with an energy off the table answers exactly as before the sequence, and the temperature of an energy on the table changes by no more than the search tolerance; right after a call at temperature T, the temperature of the energy at T is T itself. The electron fraction in the lambda is the caller's and stays as it is.", "quantifier": "all tables, electron fractions, states, contents of the cache and of uninitialised memory, and all sequences of earlier calls", "why_tests_cant": "the claim quantifies over unbounded histories of calls sharing one lambda and over all tables; tests make one call on a fresh lambda", "anchors": ["singularity-eos/eos/eos_stellar_collapse.hpp StellarCollapse::getLogsFromRhoT_, getLogsFromRhoSie_, lTFromlRhoSie_, ValuesAtReferenceState, DensityEnergyFromPressureTemperature, FillEos", "singularity-eos/base/indexable_types.hpp SafeMustGet, SafeMustSet, SafeGet, SafeSet"]}
{"id": "C158", "title": "The lambda of a Spiner (density, temperature) EOS: answers do not depend on it, its entries report on the last call", "statement": "For SpinerEOSDependsRhoT with any lambda (null, array, or type-indexed with any entries): a call that has nothing to search for gives the same answer with every lambda, hence after every history; the others change by at most the search tolerance, and not at all in reproducibility mode. RootStatus and TableStatus report whether the last call's search succeeded and where its state lay. Right after a call at a density and temperature, the temperature of the energy there and the density of the pressure there are found exactly. The mass fraction entries receive the phase fractions at the given state and nothing else writes them. FillEos leaves the same entries as the corresponding single query.", "quantifier": "all tables, states, lambdas, contents of uninitialised memory, sequences of earlier calls and numbers of phases", "why_tests_cant": "histories, lambda layouts and tables are unbounded; tests use one layout and a few calls", "anchors": ["singularity-eos/eos/eos_spiner_rho_temp.hpp getLogsRhoT_, lTFromlRhoSie_, lTFromlRhoP_, lRhoFromPlT_, MassFractionsFromDensityTemperature, MassFractionsFromDensityInternalEnergy, FillEos", "singularity-eos/base/indexable_types.hpp SafeGet, SafeSet, RootStatus, TableStatus, MassFractions", "doc/sphinx/src/models.rst"]}
{"id": "C159", "title": "The lambda of a Spiner (density, energy) EOS: answers do not depend on it, its entries report on the last call", "statement": "For SpinerEOSDependsRhoSie with any lambda (null, array, or type-indexed with any entries): a call that has nothing to search for, that is every call except finding a density from a pressure on the table, gives the same answer with every lambda, hence after every history; finding a density changes by at most the search tolerance with the lambda, and not at all in reproducibility mode. RootStatus reports whether the last search succeeded, TableStatus where its state lay. After a call at a density, the density of the pressure there at any temperature is found exactly, calls that note no density in between included. The mass fraction entries, or the array given instead, receive the phase fractions at the given state and nothing else writes them.", "quantifier": "all tables, states, lambdas, contents of uninitialised memory, sequences of earlier calls and numbers of phases", "why_tests_cant": "histories, lambda layouts and tables are unbounded; tests use one layout and a few calls", "anchors": ["singularity-eos/eos/eos_spiner_rho_sie.hpp interpRhoT_, interpRhoSie_, lRhoFromPlT_, MassFractionsFromDensityTemperature, MassFractionsFromDensityInternalEnergy, FillEos, DensityEnergyFromPressureTemperature", "singularity-eos/base/indexable_types.hpp SafeGet, SafeSet, RootStatus, TableStatus, MassFractions"]}
{"id": "C160", "title": "A PTE solver touches only the entries of its own arrays, and fills what it should", "statement": "Whatever values come up and however the driver interleaves its calls after Init, each PTE solver reads and writes only existing entries of its scratch blocks and of the caller's per-material arrays, and only inside the memory it asked for. Each evaluation of the residual writes every equation exactly once; each Jacobian evaluation writes every entry of the matrix that is then solved; each trial step rewrites volume fraction, density, energy, pressure and internal energy density of every material.", "quantifier": "all five solvers, every number of materials, every excluded material, every outcome of the value-dependent branches and every sequence of driver calls", "why_tests_cant": "the number of materials, the branches and the call sequences are unbounded; an index one past a block lands in the next block of the same allocation, where no sanitizer and no test looks", "anchors": ["singularity-eos/closure/mixed_cell_models.hpp PTESolverBase, PTESolverRhoT, PTESolverPT, PTESolverFixedT, PTESolverFixedP, PTESolverRhoU, solve_Ax_b_wscr, sum_neumaier"]}
{"id": "C161", "title": "Floor, ramp, relativistic and unit modifiers in machine arithmetic", "statement": "In double precision: FlooredEnergy looks up exactly the energy given or the minimum energy, never one below the minimum, and keeps a monotone lookup monotone. BilinearRamp returns the larger of the two pressures; its ramp pressure is exactly 0 up to the reference density, never negative and never falling with density on either part, and the density found from it agrees with the density given up to six roundings. RelativisticEOS returns a bulk modulus that is never negative and never NaN, equal to B/(c^2+e+P/rho) up to four roundings. UnitSystem calls the wrapped equation of state with arguments converted up to one rounding, its results are converted up to three, and FillEos leaves the quantities it is given unchanged. NaN from the wrapped equation of state is not turned into a number.", "quantifier": "all double-precision arguments and parameters in the stated ranges, infinities and NaN included where no range is stated, all wrapped equations of state, every rule for ties in rounding", "why_tests_cant": "rounding, NaN and infinities at every operand: tests compare a few values with a tolerance and never look at NaN or at neighbouring numbers", "anchors": ["singularity-eos/eos/modifiers/floored_energy.hpp FlooredEnergy", "singularity-eos/eos/modifiers/ramps_eos.hpp BilinearRampEOS, get_ramp_pressure, get_ramp_density, get_ramp_dpdrho", "singularity-eos/eos/modifiers/relativistic_eos.hpp RelativisticEOS::BulkModulusFromDensityInternalEnergy, BulkModulusFromDensityTemperature", "singularity-eos/eos/modifiers/eos_unitsystem.hpp UnitSystem"]}
{"id": "C162", "title": "P-alpha ramp parameters and their searches", "statement": "pAlpha2BilinearRampParams returns the parameters of a ramp that is zero up to rho0/alpha0 and passes exactly through (rmid, Pe) and (r1, Pc), where rmid is the density at which the solid part has the elastic pressure and r1 the density at which the solid has the crush pressure, both found within the search tolerance; the bound it searches up to is high enough whenever the solid does not soften under compression, and for an ideal gas; when a point cannot be found the caller is told.", "quantifier": "all equations of state (isotherms), porosities, elastic and crush pressures, search bounds, contents of uninitialised variables and hardware results of a division by zero", "why_tests_cant": "it composes an iterative search over an arbitrary isotherm with the algebra of the ramp; the one test uses an ideal gas whose linear isotherm the secant search hits at once", "anchors": ["singularity-eos/eos/modifiers/ramps_eos.hpp pAlpha2BilinearRampParams", "singularity-eos/base/root-finding-1d/root_finding.hpp findRoot, bisect"]}
{"id": "C163", "title": "Carnahan-Starling gas in machine arithmetic", "statement": "In double precision, with rounding, overflow, infinities and NaN: for every argument temperature, pressure and bulk modulus are at least SMALL and the energy at least q; below the packing limit all lookups are monotone in temperature or energy up to the infinities. The energy is exact up to 2 roundings, the temperature up to 4 of (e-q)/Cv, T to e to T up to 10 roundings of T + q/Cv; with F = 1 - b rho the compressibility Z, Z gm1, pressure and bulk modulus up to 33/F, 36/F, 44/F and 85/F roundings for F down to 2^-40. Without covolume the gas is the ideal gas to the last bit. The density search always ends; a density it returns is at least 0, never NaN, and the midpoint of two densities meeting the stopping rule; a NaN pressure, temperature or guess aborts. Fails: NaN arguments of the other lookups give ordinary numbers; the tolerances of the density search are absolute, so for a thin gas (b = gm1 = Cv = T = 1, guess up to 2^-30) the density returned is half the guess whatever the pressure.", "quantifier": "all roundings to nearest (any tie rule), all machine numbers, all parameters", "why_tests_cant": "the loss near the packing limit and the search's last steps depend on the bits; a test uses a few states and a tolerance", "anchors": ["singularity-eos/eos/eos_carnahan_starling.hpp: CarnahanStarling::ZedFromDensity, PartialRhoZedFromDensity, DensityFromPressureTemperature, TemperatureFromDensityInternalEnergy, InternalEnergyFromDensityTemperature, PressureFromDensityTemperature, PressureFromDensityInternalEnergy, BulkModulusFromDensityTemperature, GruneisenParamFromDensityTemperature", "singularity-eos/base/root-finding-1d/root_finding.hpp: regula_falsi"]}
{"id": "C164", "title": "The Fortran and C declarations of the interface agree", "statement": "For every function of the C interface that the Fortran module declares, the two declarations have the same number of arguments, of interoperable types, by value or by reference alike, so that each C parameter receives what the Fortran user gave under its name, however many arguments there are; absent optional arguments arrive as null or as the documented default; and what is declared as not changed by a call is not changed.", "quantifier": "all 20 functions, all values of all arguments, with and without optional arguments, any number and mixture of arguments for the calling convention, both ways a compiler may pass intent(in) arguments", "why_tests_cant": "the linker checks only names; an exchanged pair of doubles or a missing value attribute compiles, links and shows only for some values on some platforms", "anchors": ["singularity-eos/eos/singularity_eos.f90: interface blocks, get_sg_eos_f, init_sg_*_f, finalize_sg_eos_f", "singularity-eos/eos/singularity_eos.hpp: extern C declarations", "singularity-eos/eos/singularity_eos.cpp: init_sg_eos, finalize_sg_eos"]}
{"id": "C165", "title": "SAP polynomial in machine arithmetic", "statement": "In double precision, with rounding, overflow, infinities and NaN: the compression polynomial is taken exactly when the density is at least the reference density, down to the neighbouring doubles, and there the compression is exactly 0. Pressure, Gruneisen and bulk modulus lookups are finite and equal the polynomial of the exact compression within 2^-48 of the sum of the magnitudes of its terms, for coefficients, energies and densities of any size and sign short of overflow (magnitudes below 2^-500 count as 2^-500). A NaN or infinite density or energy is never masked: it shows in the result. Fails: a zero reference density is accepted, and then no lookup ever gives an ordinary number.", "quantifier": "all roundings to nearest (any tie rule), all machine numbers, all parameters", "why_tests_cant": "a branch one rounding off shows only at neighbours of the reference density; the loss by cancellation depends on the coefficients; a test uses a few states and a tolerance", "anchors": ["singularity-eos/eos/eos_sap_polynomial.hpp: SAP_Polynomial::MuFromDensity, PressureFromDensityInternalEnergy, GruneisenParamFromDensityInternalEnergy, BulkModulusFromDensityInternalEnergy, CheckParams"]}
{"id": "C166", "title": "Ideal electron gas in machine arithmetic", "statement": "In double precision, with rounding, overflow, infinities and NaN: every lookup of IdealElectrons is at least 0 and never NaN, for all arguments and ionization states. At each ionization state it is bit for bit the ideal gas with that state's heat capacity, except that NaN becomes 0; negative states count as 0. In range every lookup is exact up to at most 6 roundings, temperature to energy and back up to 4, density to pressure and back up to 8, gamma - 1 is 2/3 up to 3 units of 2^-53 and the heat capacity per electron k/(gm1 A m_p) up to 5 roundings. Fails: for neutral atoms (state 0) a positive energy has infinite temperature and its two pressures differ (positive and 0); NaN arguments or states are masked as 0.", "quantifier": "all roundings to nearest (any tie rule), all machine numbers, all ionization states", "why_tests_cant": "NaN, infinities and state 0 are points a test misses; the rounding bounds range over all doubles", "anchors": ["singularity-eos/eos/eos_electrons.hpp: IdealElectrons, _Cv, TemperatureFromDensityInternalEnergy, InternalEnergyFromDensityTemperature, PressureFromDensityTemperature, PressureFromDensityInternalEnergy, BulkModulusFromDensityTemperature, BulkModulusFromDensityInternalEnergy, DensityEnergyFromPressureTemperature"]}
{"id": "C167", "title": "JWL in machine arithmetic", "statement": "In double precision, with rounding, overflow, infinities and NaN, and whatever the library's exponential returns: with e_r and P_r the computed reference energy and pressure at the density, temperature to energy and back gives T up to 2^-48 of T + 2|e_r|/Cv; the pressure by temperature is P_r + w rho Cv T up to 2^-48 of |P_r| + w rho (2|e_r| + Cv T), and the pressure the density search solves for is the same sum up to 2^-48 of its terms; each reference function calls the exponential at -R rho0/rho up to 2^-48 and combines the results up to 2^-48 of the sum of its terms' sizes. A NaN or infinite temperature, energy or (in the pressures) density is never masked. Fails: a thermal energy below 2^-54 of e_r is lost, so that the temperature comes back as 0.", "quantifier": "all roundings to nearest (any tie rule), all machine numbers, all exponentials", "why_tests_cant": "the loss depends on the ratio of thermal to reference energy, the masking on special values; a test uses a few states and a tolerance", "anchors": ["singularity-eos/eos/eos_jwl.hpp: JWL::ReferencePressure, ReferenceEnergy, InternalEnergyFromDensityTemperature, PressureFromDensityInternalEnergy, TemperatureFromDensityInternalEnergy, PressureFromDensityTemperature, DensityEnergyFromPressureTemperature"]}
