import json
P=[]
def p(id,title,statement,quantifier,why,anchors): P.append(dict(id=id,title=title,statement=statement,quantifier=quantifier,why_tests_cant=why,anchors=anchors))
KPT="singularity-eos/closure/kinetic_phasetransition_"
MC="singularity-eos/closure/mixed_cell_models.hpp"
p("C01","SortGibbs returns a descending ordering permutation","After SortGibbs(n, gibbs, order), order[0..n) is a permutation of 0..n-1 and gibbs[order[0]] >= gibbs[order[1]] >= ... >= gibbs[order[n-1]]; the contents of order before the call do not matter.","every phase count n>=0 and every array of real Gibbs energies, including ties","tests use 2-4 phases with fixed energies; the claim is over all lengths and all real inputs",[KPT+"utils.hpp:SortGibbs"])
p("C02","Kinetic mass-fraction update conserves mass and never produces negative fractions","SmallStepMFUpdate writes new mass fractions that are all non-negative, and their sum equals the sum of the input mass fractions except that a phase whose available mass is below KPT_MIN_MASS_FRACTION is emptied; the mass lost is at most (num_phases-1)*1e-10 and is exactly the sum of those sub-threshold masses. Total mass is conserved exactly if and only if no donor reached in order has an available mass strictly between 0 and 1e-10.","every number of phases, every ordering permutation, every vector of non-negative mass fractions, every time step and every table of log rates","unit tests check one or two-phase examples; conservation must hold for any number of phases and any rates, including rates that exhaust phases",[KPT+"methods.hpp:SmallStepMFUpdate"])
p("C03","The packed phase-pair table is addressed consistently","The rate table filled by LogRatesCGModel, the mass-transfer table filled by SmallStepMFUpdate and the documented index jk=(j+1)(n-1)-(j-1)j/2-k agree: each ordered pair j<k occupies exactly one slot, slots are exactly 0..n(n-1)/2-1, nothing is written outside them, and the from/to label 10*from+to identifies both phases for up to ten phases (and for no more: with eleven two transitions share a label).","all phase counts n and all pairs j<k<n","index formulas are only exercised at n=2,3 in tests; an off-by-one may appear only for larger n",[KPT+"methods.hpp:SmallStepMFUpdate",KPT+"models.hpp:LogRatesCGModel"])
p("C04","The maximum kinetic time step keeps every single transfer within the phase's mass","With log dt <= LogMaxTimeStep, for every donor phase above the mass threshold the amount requested for each receiving phase is at most the donor's mass fraction; LogMaxTimeStep never exceeds 1 and is the largest such value.","all phase counts, rate tables and mass fractions","depends on a min over all pairs and skipping depleted phases with the packed index kept in step",[KPT+"models.hpp:LogMaxTimeStep",KPT+"methods.hpp:SmallStepMFUpdate"])
RU="singularity-eos/base/robust_utils.hpp"
p("C05","Robust ratio is total, sign-preserving and never exceeds the true quotient in magnitude","robust::ratio(a,b) never divides by zero for any b (including 0), has the sign of a*b (b=0 counts as positive), satisfies |ratio(a,b)|<=|a/b| for b!=0, and its relative deviation from a/b is exactly SMALL/(|b|+SMALL).","all real a, b","infinitely many operands; b near or at zero are the interesting ones",[RU+":ratio",RU+":sgn"])
p("C06","Robust clamps stay in their interval","make_positive(v) is >= EPS and equals v when v>=EPS; make_bounded(v,lo,hi) is the projection onto [lo+EPS, hi(1-EPS)] whenever that interval is non-empty, is monotone in v, and is strictly inside (lo,hi) when hi>0 (for negative hi it can exceed hi); safe_arg_exp is 0 below the exponent range, infinite above, the exponential (a normal double) in between, and monotone.","all real arguments and bounds","clamps must hold for all arguments; negative upper bounds are an unusual case tests do not try",[RU+":make_positive",RU+":make_bounded",RU+":safe_arg_exp"])
p("C07","Integer powers by repeated squaring equal the mathematical power","math_utils::pow<P>(x) equals x^P for every integer P (1/x^|P| for negative P) and the recursion terminates.","every integer exponent and every real x","template is instantiated only at small P in tests",["singularity-eos/base/math_utils.hpp:pow"])
RF="singularity-eos/base/root-finding-1d/root_finding.hpp"
p("C08","regula_falsi keeps a bracket and returns a point of it","If the end points of [a,b], or one of them and the guess, bracket the target, and xtol, ytol are non-negative, then whatever the function the returned root lies in [a,b], at the middle of a final interval inside [a,b] over which f-target still changes sign, so for continuous f the final interval contains a true root; the loop makes at most 1000 iterations; FAIL is returned exactly when the iteration limit is reached or no bracket is found. (With a negative xtol the loop can run for ever.)","every function, target, interval, guess and tolerance","tests use a few smooth functions; the bracket invariant must hold for arbitrary functions and iteration histories",[RF+":regula_falsi",RF+":set_bracket",RF+":check_bracket"])
p("C09","Where the root reported by regula_falsi can be","The root reported by regula_falsi(f,target,guess,a,b,...) is in the caller's interval [a,b] if that interval, or the part on either side of the guess, brackets the target, whether or not the search converged. Without a bracket the root is only within [a, max(b, a+31.5(b-a))], and SUCCESS with a root outside [a,b] does happen.","every function, target and interval","needs a function without a sign change at the ends but with one outside the interval; the bracket search then samples outside [a,b]",[RF+":regula_falsi",RF+":set_bracket"])
p("C10","What SUCCESS from newton_raphson means","newton_raphson makes at most 100 iterations; with fail_on_bound_root a SUCCESS result lies in [a,b] and satisfies |f(x)-target|<|ytol*target|; without it SUCCESS means either that, or that the iteration stopped at or beyond an end of the interval (possibly outside it). A target of zero is never reported as found.","every function/derivative pair, target, interval and guess","requires adversarial functions and zero targets",[RF+":newton_raphson"])
p("C11","Bisection / findRoot shrink a sign-changing interval and return a point within bounds","findRoot's SUCCESS result lies in [xmin,xmax]; the bisection fallback keeps f(a)-y and f(b)-y of opposite sign at every step, halves the interval each step, and performs a bounded number of steps.","every continuous or discontinuous function, target, bounds and guess","arbitrary iteration histories",[RF+":findRoot",RF+":bisect",RF+":secant"])
p("C12","sum_neumaier equals the sum of all entries except the skipped one","sum_neumaier(arr,n,iskip) returns the exact sum over all indices other than iskip in exact arithmetic (the compensation never biases the sum).","every length, array and skip index","compensated summation branches on magnitudes; only an argument over all orderings of magnitudes shows the compensation is bias-free",[MC+":sum_neumaier"])
p("C13","The density-temperature PTE trial step keeps the total volume fraction","For PTESolverRhoT, which promises that volume fractions exactly sum, each TestUpdate leaves the volume fractions summing to the vfrac_total given to the constructor.","every number of materials, every step and scale, every vfrac_total","tests use vfrac_total=1",[MC+":PTESolverRhoT::TestUpdate",MC+":EnforceMassVolumesSum"])
p("C14","EnforceMassVolumesSum restores the total volume without changing each material's mass","After EnforceMassVolumesSum on a state, volume fractions sum to vfrac_total and every material's mass rho_i*vfrac_i is unchanged (up to the SMALL regularisation).","all numbers of materials and all positive states","all lengths and values",[MC+":EnforceMassVolumesSum"])
p("C15","EnforceEnergiesSum restores the total energy","After EnforceEnergiesSum the mass-weighted internal energies sum to the total.","all numbers of materials and states with non-zero energy","all lengths and values",[MC+":EnforceEnergiesSum"])
p("C16","PTE scratch blocks are disjoint and fit the advertised size","For each PTE solver, the arrays carved from the caller's scratch are pairwise disjoint, contiguous, and together exactly fill the number of doubles reported by PTESolver*RequiredScratch(nmat).","every solver and every nmat>=1","one overlooked block overlaps only for particular nmat",[MC+":PTESolverRhoTRequiredScratch",MC+":PTESolverBase",MC+":AssignIncrement"])
p("C17","The PTE driver terminates, and accepted or rejected trial steps leave a consistent state","PTESolver performs at most the configured number of iterations; a rejected ideal-gas guess leaves the solver state exactly as before; the iterates' error is non-increasing under line search acceptance.","every solver, every EOS behaviour (arbitrary residual function), every iteration limit","the loop's history is arbitrary",[MC+":PTESolver",MC+":TryIdealPTE"])
p("C18","A converged PTE status means the returned state satisfies the solver's convergence test","If PTESolver returns converged=true, the state written back satisfies the solver's own CheckPTE test; with default parameters that means relative residuals below 1e-6 (1e-4 in temperature), and a stalled state is accepted within 100 (10) times that, also for tolerances the user assigns (false: the relaxed tolerances do not follow the assignment).","every iteration history","slow-convergence exit occurs only for rare residual histories",[MC+":PTESolver"])
p("C19","PTE residual Jacobian is the derivative of the residual","For each PTE solver, the linear system's matrix is minus the Jacobian of the residual with respect to the unknowns, with derivatives taken at points within the finite-difference perturbation of the current state, so the Newton step solves the linearised PTE equations; for the (P,T) solver at a non-zero pressure (at zero pressure its matrix is singular).","every material count and state, differentiable EOS","sign and index errors in a row affect convergence only",[MC+":PTESolverRhoT::Jacobian",MC+":PTESolverRhoU::Jacobian"])
p("C20","SetVfracFromT never exceeds per-material volume caps when it reports success","When SetVfracFromT returns true the volume fractions sum to the total and none exceeds the material's maximum volume fraction at that temperature.","every number of materials, temperature and caps","needs three or more materials capped in separate rounds",[MC+":SetVfracFromT",MC+":NormalizeVfrac"])
p("C21","The small linear solver solves the system","solve_Ax_b_wscr for n=1 and n=2 returns true only with A x = b (up to SMALL), and returns false for a zero row.","all matrices and right-hand sides","pivot and row scaling cases",[MC+":solve_Ax_b_wscr"])
p("C22","PTE step limiters keep every bounded quantity in bounds","After ScaleDx the scaled step applied to the unknowns keeps each volume fraction in (0,vfrac_total], each density above its minimum and temperature (and pressure) within range.","all material counts and steps","index misalignment only appears when a material is skipped",[MC+":PTESolverRhoT::ScaleDx",MC+":PTESolverPT::ScaleDx",MC+":PTESolverRhoU::ScaleDx"])
p("C23","ApproxTemperatureFromRhoMatU returns a temperature in its search window that brackets the energy","The routine returns a temperature in [1e-9,1e9] and keeps the invariant that the total energy at the lower end is <= target <= the energy at the upper end whenever that holds initially.","every EOS list with monotone energy, every energy","arbitrary bisection histories",[MC+":ApproxTemperatureFromRhoMatU"])
G="singularity-eos/eos/get_sg_eos_functors.hpp"
p("C24","Concurrent cells never share scratch rows in the C interface","In get_sg_eos every cell being processed has exclusive use of its scratch row, whatever the schedule.","every number of cells, threads and every interleaving of starts and finishes","schedules cannot be enumerated by tests",["singularity-eos/eos/get_sg_eos.cpp:get_sg_eos",G])
p("C25","The C interface's lambda cache does not overlap the PTE solver's arrays","In get_sg_eos the per-cell lambda cache and the arrays used by the PTE solver are disjoint and both lie within the allocated scratch row.","every input mode, material count and number of participating materials","aliasing only shows for particular nmat/npte combinations and only corrupts values",[G,"singularity-eos/eos/get_sg_eos.cpp:get_sg_eos"])
p("C26","get_sg_eos restores mass fractions and leaves inputs untouched with mult=0","After the final functor the caller's mass fractions are the originals, and quantities that are inputs in the chosen mode are unchanged.","all modes and states","all values",[G+":final_functor"])
p("C27","Host initialisation does not modify the caller's modifier parameters","init_sg_* called twice with identical arguments creates the same EOS both times.","all parameter arrays and enable flags","needs calling twice with the same array and ramp flag 3",["singularity-eos/eos/singularity_eos.cpp:init_sg_IdealGas","singularity-eos/eos/singularity_eos_init_utils.hpp"])
MD="singularity-eos/eos/modifiers/"
p("C28","ScaledEOS is the wrapped EOS under rho->scale*rho, sie->sie/scale","Temperature, pressure, entropy, bulk modulus and Gruneisen queries of ScaledEOS equal the wrapped EOS at scale*rho and sie/scale (entropy times scale), density limits, reference state and P-T derivatives are converted likewise, and Gruneisen parameter and bulk modulus remain the derivatives of the pressure.","every wrapped EOS, every nonzero scale, all states","wrapped EOS is arbitrary",[MD+"scaled_eos.hpp:ScaledEOS"])
p("C29","ShiftedEOS is the wrapped EOS under sie->sie-shift","Every ShiftedEOS query equals the wrapped one at shifted energy; inversions round-trip; minimum energy is shifted; shifting by zero is the identity and shifts compose additively.","every wrapped EOS, shift and state","wrapped EOS is arbitrary",[MD+"shifted_eos.hpp:ShiftedEOS"])
p("C30","BilinearRampEOS pressure is the max of ramp and EOS and is continuous","The pressure returned is the larger of the ramp and the wrapped pressure; for every accepted parameter set whose mid point is not below r0 the ramp is 0 below r0, non-negative, continuous and non-decreasing, its density query inverts it, and the P-alpha construction passes through its two prescribed points; all other queries are those of the wrapped EOS above the ramp. (CheckParams also accepts mid points below r0, where the ramp drops to a negative pressure.)","every wrapped EOS, accepted ramp parameters and density","continuity and max over all real densities",[MD+"ramps_eos.hpp:BilinearRampEOS"])
p("C31","FlooredEnergy never evaluates below the cold curve and is idempotent","Every query by energy through FlooredEnergy equals the wrapped EOS at max(e, MinInternalEnergy(rho)); wrapping twice equals wrapping once; energies above the floor are unaffected.","every wrapped EOS and state","wrapped EOS is arbitrary",[MD+"floored_energy.hpp:FlooredEnergy"])
p("C32","RelativisticEOS bulk modulus is the causal one","The bulk modulus returned is max(0, B/|c^2+e+P/rho|), is never negative, implies a sound speed below c whenever the wrapped bulk modulus does not exceed rho times the relativistic enthalpy, by-temperature and by-energy queries agree, and every other query is unchanged.","every wrapped EOS and state","all values",[MD+"relativistic_eos.hpp:RelativisticEOS"])
p("C33","ZSplit electron and ion parts sum to the whole","For the same state, the electron-split and ion-split EOS return pressures, energies, heat capacities and bulk moduli that sum to those of the unsplit EOS at ionisation Z; conversions invert each other.","every wrapped EOS, Z>=0 and state","all values",[MD+"zsplit_eos.hpp:ZSplit"])
p("C34","UnitSystem conversions are mutually inverse and consistent","An EOS wrapped in UnitSystem gives the wrapped answer converted to the new units for every query, for scalar and vector calls alike; with all units 1 it is the identity.","every wrapped EOS, unit set and state","all unit factors",[MD+"eos_unitsystem.hpp:UnitSystem"])
p("C35","Every EOS produced by the modifier pipeline is a member of the EOS variant","Applying shift, scale and ramp in the host interface always yields a type in the variant's type list; the type list has no duplicates and contains each base EOS and each modified one.","all base EOS types and modifier flags","type-level combinatorics",["singularity-eos/eos/eos_type_lists.hpp","singularity-eos/base/variadic_utils.hpp"])
E="singularity-eos/eos/"
p("C36","IdealGas inversions and thermodynamic identities","For IdealGas: T(rho,e(rho,T))=T, P(rho,T)=P(rho,e(rho,T)), rho,e from P,T invert, bulk modulus is rho dP/drho at constant entropy, dP/de and heat capacity are derivatives of P and e, FillEos agrees with the individual queries.","all positive parameters and states","all real parameters and states",[E+"eos_ideal.hpp:IdealGas"])
p("C37","StiffGas inversions and identities","As C36 for StiffGas including the density-temperature from pressure inversion and the pressure-zero floor.","all positive parameters and states","all real values",[E+"eos_stiff.hpp:StiffGas"])
p("C38","NobleAbel inversions, identities and FillEos agreement","As C36 for NobleAbel; FillEos returns the same bulk modulus as BulkModulusFromDensityInternalEnergy.","all positive parameters and states","all real values",[E+"eos_noble_abel.hpp:NobleAbel"])
p("C39","CarnahanStarling is thermodynamically consistent and its density inversion accurate","At every positive density below the inverse covolume and every positive temperature, CarnahanStarling's energy, pressure, entropy, heat capacity, Gruneisen parameter and bulk modulus satisfy the thermodynamic laws; for every positive pressure and temperature exactly one density below the inverse covolume has that pressure and the density query, if it does not abort, returns one within 2e-9 of it (with an explicit condition under which it cannot abort); without covolume the density is exact; the energy FillEos computes from density and pressure has that pressure.","all parameters","parameters where gm1 != 1",[E+"eos_carnahan_starling.hpp:CarnahanStarling"])
p("C40","JWL inversions and Mie-Gruneisen consistency","JWL: temperature and energy invert each other and by-temperature queries equal their by-energy twins at every state; heat capacity, Gruneisen parameter and bulk modulus are the derivatives they are named after and the first law holds (away from the densities where an exponential is cut off); with nonnegative coefficients the pressure rises strictly with density, and the density from pressure and temperature, if the call does not abort, is within max(1e-8, 2e-8/(w Cv T)) of the one that has that pressure in [1e-5,1e3], returned with its energy.","all parameters and states","all real values",[E+"eos_jwl.hpp:JWL"])
p("C41","Gruneisen: bulk modulus, inversion and continuity","Gruneisen: T/e inversion is exact, P is continuous at rho0, the bulk modulus is rho dP/drho|_s in compression and expansion, and densities above the maximum are treated as the maximum.","all parameters and states","derivative identities over all reals",[E+"eos_gruneisen.hpp:Gruneisen"])
p("C42","Gruneisen maximum pressure query returns a pressure consistent with the EOS","MaximumPressureAtTemperature(T) equals the pressure at the maximum density and temperature T.","all parameters and temperatures","a unit mismatch is invisible unless compared with the pressure query",[E+"eos_gruneisen.hpp:MaximumPressureAtTemperature"])
p("C43","DavisReactants inversions, cold energy and bulk modulus","DavisReactants: T/e inversion holds above the minimum energy; T>=0 everywhere and 0 at or below MinInternalEnergy; the reference-isentrope pressure is -dE/dv; bulk modulus is the isentropic derivative.","all parameters and states","derivative identities over all reals",[E+"eos_davis.hpp:DavisReactants"])
p("C44","DavisProducts inversions and identities","DavisProducts: temperature and energy invert each other and P(rho,T) equals P(rho,e(rho,T)) at every state; heat capacity and Gruneisen parameter are the derivatives they are named after; the reference curve is an isentrope; the first law holds and the bulk modulus is rho dP/drho at constant entropy; the density from pressure and temperature, if the call does not abort, is within max(1e-8, 2e-8/m) of the one in [1e-5,1e3] having that pressure when the chords of the pressure through it rise at rate m, returned with its energy.","all parameters and states","real analysis",[E+"eos_davis.hpp:DavisProducts"])
p("C45","MGUsup: both bulk-modulus queries equal the isentropic derivative","MGUsup bulk modulus from (rho,e) and from (rho,T) agree and equal rho dP/drho|_s; T/e inversion; P(rho,T)=P(rho,e(rho,T)).","all parameters and states","derivative identities over all reals",[E+"eos_mgusup.hpp:MGUsup"])
p("C46","PowerMG: Hugoniot pressure polynomial, bulk modulus and expansion branch","PowerMG compression pressure is the polynomial K0*eta*(1+sum K_i eta^i); energy derivative is consistent; bulk modulus is the isentropic derivative in compression and in expansion.","all parameters, coefficients and states","derivative identities over all polynomials",[E+"eos_powermg.hpp:PowerMG"])
p("C47","Vinet is thermodynamically consistent","Vinet: temperature and energy invert each other at every state; the pressure is the Vinet form with the user's coefficients; energy, pressure and entropy satisfy the first law exactly; heat capacity, Gruneisen parameter, isothermal bulk modulus and expansion coefficient are the derivatives they are named after; the bulk modulus is max(0, rho dP/drho|_s).","all parameters, expansion coefficients and states","the coefficient recursion is exercised for one parameter set only",[E+"eos_vinet.hpp:Vinet"])
p("C48","SAP_Polynomial bulk modulus and Gruneisen match its pressure","For SAP_Polynomial the Gruneisen parameter is (1/rho) dP/de and the bulk modulus is the isentropic derivative of its pressure.","all parameters and states","derivative identities",[E+"eos_sap_polynomial.hpp:SAP_Polynomial"])
p("C49","IdealElectrons scale with ionisation","IdealElectrons with ionisation Z behaves as an ideal gas with Z electrons per atom and returns zero pressure and energy for Z=0; T/e inversion for Z>0.","all Z and states","all values",[E+"eos_electrons.hpp:IdealElectrons"])
p("C50","Vector calls equal element-wise scalar calls","Each vector entry point (with or without scratch, with any indexer) produces in slot i the scalar result for inputs i, and does not touch other slots.","every EOS, every length, every initial contents of output arrays, any loop order","length and order are unbounded",[E+"eos_base.hpp:EosBase"])
p("C51","FillEos honours its input/output flags","FillEos never modifies quantities flagged as inputs, computes exactly the requested outputs, and fails when the inputs are insufficient.","every flag combination and state, each EOS","2^k flags times all states",[E+"eos_base.hpp",E+"eos_ideal.hpp:FillEos",E+"eos_mgusup.hpp:FillEos",E+"eos_powermg.hpp:FillEos",E+"eos_vinet.hpp:FillEos",E+"modifiers/ramps_eos.hpp:FillEos",E+"modifiers/shifted_eos.hpp:FillEos",E+"modifiers/scaled_eos.hpp:FillEos"])
p("C52","Energy-from-pressure inversion returns an energy with the requested pressure","InternalEnergyFromDensityPressure of the base class returns an energy whose pressure equals the request, choosing a starting guess within the bracket.","every monotone EOS and pressure","all EOS",[E+"eos_base.hpp:InternalEnergyFromDensityPressure"])
V="singularity-eos/base/"
p("C53","Type-indexed lambda access is by type, never by accident","VariadicIndexer/IndexableTypes: writing through a type then reading through the same type returns the value, other types are unaffected; SafeGet returns false and leaves the output untouched when the type is absent; index positions are the first occurrence in the list.","every type list and every sequence of writes and reads","all type lists and histories",[V+"indexable_types.hpp",V+"variadic_utils.hpp"])
p("C54","Serialisation round-trips an EOS","DeSerialize of the bytes written by Serialize reproduces the EOS: same variant, scalars and table contents, consuming exactly SerializedSizeInBytes bytes and writing nothing else; with shared-memory settings the root fills the block, every process reads its tables (including any the EOS keeps inside helper objects) from the block only.","every EOS contents and size","all sizes",[E+"eos_base.hpp:Serialize",E+"eos_base.hpp:DeSerialize",E+"eos_variant.hpp"])
p("C55","Bulk serialisation of a list of EOS round-trips","BulkSerializer DeSerialize reproduces every EOS of the container in order, with or without a shared block, each EOS's tables being read from its own bytes at suitably aligned addresses.","every list of EOS","needs two or more dynamic-memory EOS",[V+"serialization_utils.hpp:BulkSerializer"])
p("C56","Finalize frees owned memory exactly once","For table EOS, any sequence of loading, copies to device, deserialisations and Finalize calls (by GetOnDevice, serialisation or loading, not plain shallow copies, which must not be finalised as well as their original) frees each owned block at most once, never frees memory it does not own, and leaks nothing once every EOS is finalised.","every sequence of operations","histories",[V+"spiner_table_utils.hpp:SpinerTricks"])
p("C57","Fast logarithm and exponential are inverse, monotone and continuous","The not-quite-transcendental log2 and pow2 are exact mutual inverses, strictly increasing, continuous, and agree with log2 at powers of two. Builds whose tables record the same type of logarithm use the same logarithm up to rounding, whatever their other options, and builds with different types do not.","every positive real, every representable double for the aliased version, every combination of build options","infinitely many inputs",[V+"fast-math/logs.hpp"])
p("C58","Hermite interpolation reproduces nodal data","The cubic and quintic Hermite bases reproduce values and derivatives at the nodes, sum to one, and reproduce polynomials of their degree.","every nodal data and every interval","all reals",[V+"hermite.hpp"])
p("C59","Table transforms are inverse","Going to log space and back returns the input plus EPS at or above minus the offset and is strictly increasing there; the identity, cold-curve shift and temperature-scaling energy transforms of Spiner tables invert exactly for every state; the transforms that divide by the heat capacity invert (at a non-zero shifted energy) exactly when the tabulated dT/dE lies in [1e-8,1e8].","all states","all reals",[E+"eos_spiner_sie_transforms.hpp",E+"eos_spiner_common.hpp"])
p("C60","Piecewise grid bounds contain their anchor and nest properly","Table bounds built with an anchor point place a grid point exactly on the anchor, contain the requested range and are ordered; multi-grid bounds are contiguous and monotone.","all bounds and point counts","all reals",[V+"spiner_table_utils.hpp:Bounds"])
p("C61","What SUCCESS from regula_falsi means","When regula_falsi reports SUCCESS for a continuous function, the returned point is within xtol of a true root or both working end residuals are within ytol; and when the chords of f through a root r of the interval all rise (or all fall) at least at rate m>0, SUCCESS from any guess means the returned point is within max(xtol, 2 ytol/m) of r, and SUCCESS is certain when the chord slopes are at most M and (log2(M/m)+2) q < 1000 with (1-m/2M)^q (b-a) <= xtol. (Without such a rate SUCCESS can be reported at a point that is no root.)","every function, target, interval, guess and tolerances","the loop exit condition involves arbitrary histories",[RF+":regula_falsi"])
p("C62","The PTE temperature guess respects every material's limits","When GetTguess reports no problem the returned temperature is at least the caller's guess and at least every material's MinimumTemperature, densities are rhobar/vfrac and each is at least RhoPmin at the returned temperature.","every number of materials, every EOS response and initial guess","the guess loop retries with growing temperatures; any history may occur",[MC+":GetTguess"])
p("C63","Optional per-material outputs follow their own pointer","In get_sg_eos each optional per-material output array (bulk modulus, dP/de, heat capacity) is written exactly when the caller passes a non-null pointer for that array.","every combination of null and non-null pointers","needs mixed null patterns",["singularity-eos/eos/get_sg_eos.cpp:get_sg_eos"])
p("C64","A cell with one non-negligible material gets that material's answer","In (rho,e) mode, when exactly one material is above the mass-fraction cutoff the returned temperature and pressure are that material's EOS values at the cell's density and energy.","every EOS, cutoff and mass-fraction vector","needs trace materials below the cutoff",["singularity-eos/eos/get_sg_eos_rho_e.cpp:get_sg_eos_rho_e",G+":init_functor"])
p("C65","Array calls never write past the scratch memory they declare","An array query that takes a scratch pointer uses at most the number of bytes that scratch_size declares for that query, and at most max_scratch_size, for every stack of modifiers.","every stack of modifiers over an EOS with its own scratch needs, every query and length","an overrun corrupts memory silently and needs the right stack",[MD+"shifted_eos.hpp:scratch_size",MD+"floored_energy.hpp:scratch_size",MD+"ramps_eos.hpp:scratch_size","singularity-eos/eos/eos_eospac.hpp:scratch_size"])
p("C66","ScaledEOS energy queries are consistent with its other queries","Temperature from the energy returned at (rho,T) is T, the minimum energy is the wrapped minimum in scaled units and the heat capacity is the temperature derivative of the energy.","every wrapped EOS satisfying those laws, every nonzero scale, all states","wrapped EOS is arbitrary",[MD+"scaled_eos.hpp:ScaledEOS"])
p("C67","Density and energy from pressure and temperature survive every modifier","If the wrapped EOS's DensityEnergyFromPressureTemperature returns a state with the requested pressure and temperature, so does the modified EOS's, in its own units.","every wrapped EOS, modifier, parameters and state","wrapped EOS is arbitrary",[MD+"shifted_eos.hpp",MD+"scaled_eos.hpp",MD+"eos_unitsystem.hpp",MD+"zsplit_eos.hpp",MD+"ramps_eos.hpp:DensityEnergyFromPressureTemperature"])
p("C68","Energy from density and pressure survives every modifier","If the wrapped EOS's InternalEnergyFromDensityPressure returns an energy with the requested pressure, so does the modified EOS's.","every wrapped EOS, modifier, parameters and state","wrapped EOS is arbitrary",[MD+"shifted_eos.hpp",MD+"scaled_eos.hpp:InternalEnergyFromDensityPressure",MD+"zsplit_eos.hpp:InternalEnergyFromDensityPressure"])
p("C69","RelativisticEOS FillEos agrees with the direct queries","The bulk modulus returned by FillEos of a RelativisticEOS equals BulkModulusFromDensityTemperature at the same state.","every wrapped EOS and state","needs comparing two entry points",[MD+"relativistic_eos.hpp:FillEos"])
p("C70","BilinearRampEOS derivative queries match its pressure","The bulk modulus and Gruneisen parameter of a ramped EOS are the isentropic and energy derivatives of the pressure it returns.","every wrapped EOS, ramp and state away from the ramp's corners","derivatives at all states",[MD+"ramps_eos.hpp:BulkModulusFromDensityInternalEnergy",MD+"ramps_eos.hpp:GruneisenParamFromDensityInternalEnergy"])
p("C71","Vectorised index types address distinct slots","Indexing a type-indexed container with MassFractions(m) and MassFractions(n), m different from n, addresses different entries: writing one leaves the other unchanged.","every container type list and every pair of indices","needs a container with several entries of a vectorised type",[V+"indexable_types.hpp:VariadicIndexerBase",V+"indexable_types.hpp:MassFractions"])
p("C72","Finite-difference pressure-temperature derivatives are true derivatives at a nearby state",
"When an EOS has no analytic pressure-temperature derivatives, each of dRho/dP|T, dE/dP|T, dRho/dT|P and dE/dT|P returned by the base-class default equals the true partial derivative of the EOS's own density-energy-from-pressure-temperature inversion at a state no further than one step (relative 1e-6 or EPS) away, and does not depend on anything but the state passed in.",
"every differentiable inversion, every pressure and temperature of either sign, every lambda",
"A test compares a few states to a tolerance; the mean-value statement holds for every inversion and every sign of the pressure.",
["singularity-eos/eos/eos_base.hpp:PTDerivativesByFiniteDifferences"])
p("C73","Gibbs free energy is consistent with entropy and pressure",
"The Gibbs free energy at (density, temperature) and at (density, energy) agree along e(rho,T), and for an EOS whose entropy is consistent with its heat capacity and pressure, dG = -S dT + dP/rho.",
"every EOS whose entropy satisfies the first law, every state",
"A thermodynamic identity between functions, quantified over all EOS and states.",
["singularity-eos/eos/eos_base.hpp:GibbsFreeEnergyFromDensityTemperature","singularity-eos/eos/eos_base.hpp:GibbsFreeEnergyFromDensityInternalEnergy"])
p("C74","Reference state is consistent with the direct queries",
"The values ValuesAtReferenceState reports (energy, pressure, heat capacity, bulk modulus, dP/dE) equal the corresponding queries at the density and temperature it reports, and dV/dT is the thermal expansion at that state.",
"every parameter set",
"Two independent code paths (constructor constants and queries) must agree for every parameter set.",
[E+"eos_ideal.hpp:ValuesAtReferenceState",E+"eos_stiff.hpp:ValuesAtReferenceState",E+"eos_noble_abel.hpp:ValuesAtReferenceState",E+"eos_carnahan_starling.hpp:ValuesAtReferenceState",E+"eos_jwl.hpp:ValuesAtReferenceState",E+"eos_electrons.hpp:ValuesAtReferenceState",E+"eos_sap_polynomial.hpp:ValuesAtReferenceState",E+"eos_gruneisen.hpp:ValuesAtReferenceState",E+"eos_davis.hpp:ValuesAtReferenceState",E+"eos_mgusup.hpp:ValuesAtReferenceState",E+"eos_powermg.hpp:ValuesAtReferenceState",E+"eos_vinet.hpp:ValuesAtReferenceState"])
p("C75","Degenerate parameters reduce to the ideal gas",
"StiffGas with zero stiffening and offset, and NobleAbel and CarnahanStarling with zero covolume and offset, answer every query as IdealGas with the same Gruneisen parameter and heat capacity (the entropy for the same reference state, and no entropy offset).",
"every state and every heat capacity and Gruneisen parameter",
"An identity between two classes on all states.",
[E+"eos_stiff.hpp:StiffGas",E+"eos_noble_abel.hpp:NobleAbel",E+"eos_carnahan_starling.hpp:CarnahanStarling"])
p("C76","The automatically chosen maximum density avoids the singular compression",
"A Gruneisen EOS constructed without a maximum density gets one below the smallest compression in (0,1) at which its reference pressure diverges, or none exactly when there is no such compression; so the reference pressure's denominator is positive at every density the EOS uses.",
"every linear, quadratic and cubic shock-velocity fit",
"Depends on the position of the roots of an arbitrary cubic.",
[E+"eos_gruneisen.hpp:ComputeRhoMax"])
p("C77","Reported Helmholtz derivatives are derivatives and obey the first law",
"In the Helmholtz EOS each component (radiation, ions, degenerate electrons) reports pressure, energy and entropy with derivatives in density, temperature, mean atomic mass and charge. Those derivatives are the true derivatives of the reported values, and T dS/dT = cv, de/drho = (P - T dP/dT)/rho^2, dS/drho = -(dP/dT)/rho^2, inside every table cell for any table contents; the density and composition derivatives of the electron pressure, which come from a second table, are right wherever that table holds D^2 F_DD + 2 D F_D of the free-energy table.",
"every state, composition and table",
"Derivative identities over all reals and all tables; finite differences only sample them.",
[E+"eos_helmholtz.hpp:HelmRad",E+"eos_helmholtz.hpp:HelmIon",E+"eos_helmholtz.hpp:HelmElectrons"])
p("C78","Helmholtz ion entropy is consistent with the ion heat capacity",
"The temperature derivative of the ion entropy returned by the Helmholtz EOS is the ion heat capacity over the temperature, and its density and composition derivatives are those reported.",
"every density, temperature and composition",
"An identity of functions; entropies are only tested against stored values.",
[E+"eos_helmholtz.hpp:HelmIon::GetFromDensityTemperature",E+"eos_helmholtz.hpp:GetFromDensityLogTemperature_"])
p("C79","Coulomb corrections report true derivatives",
"The derivatives reported with the Coulomb corrections of the Helmholtz EOS (plasma parameter, energy, pressure, entropy, cut-off gain) are derivatives of the reported corrections, and both the strong- and the weak-coupling fit are used in their own regime.",
"every density, temperature and composition",
"Needs derivatives on all states and a reachability argument for a branch.",
[E+"eos_helmholtz.hpp:HelmCoulomb::GetFromDensityTemperature",E+"eos_helmholtz.hpp:butterworth"])
p("C80","Helmholtz temperature inversion solves for the requested energy",
"TemperatureFromDensityInternalEnergy returns a temperature whose energy is the requested one, whatever the caller's lambda already holds in the log-temperature slot.",
"every density, energy, option set and lambda contents",
"The round trips of the unit tests reuse the lambda that the forward query filled, so they hold vacuously.",
[E+"eos_helmholtz.hpp:lTFromRhoSie_",E+"eos_helmholtz.hpp:TemperatureFromDensityInternalEnergy"])
p("C81","The combined Helmholtz EOS answers are mutually consistent",
"The energy-only evaluation used in the root find equals the full evaluation; the bulk modulus is rho dP/drho + T (dP/dT)^2/(rho cv), the Gruneisen parameter (dP/dT)/(rho cv), the heat capacity the temperature derivative of the returned energy, and de/drho = (P - T dP/dT)/rho^2.",
"every state, option set and table",
"Identities between answers on all states.",
[E+"eos_helmholtz.hpp:GetFromDensityLogTemperature_",E+"eos_helmholtz.hpp:ComputeGamma1_",E+"eos_helmholtz.hpp:ComputeGamma3_"])
p("C82","The density of minimum pressure brackets the pressure inversion of table EOS",
"For table EOS the minimum pressure the EOS reports bounds every table pressure from below; without the vapour-dome option the stored density at each temperature is the lowest density of minimal pressure, or zero when no pressure is non-positive; with it the stored density does not increase with temperature and no two-point pressure slope above it is below the threshold.",
"every table, size and threshold",
"A statement about all entries of all tables.",
[E+"eos_spiner_common.hpp:SetRhoPMin"])
p("C83","Every PTE trial step leaves each material in a state of its own EOS",
"After TestUpdate of any of the five PTE solvers (with exact division), each material's density times volume fraction is its mass, and its specific energy, pressure and energy density are those its own EOS gives at the new temperature (for PT: at the new pressure and temperature; for RhoU: at the new density and energy).",
"For every equation of state, number of materials, step, line-search factor and prior state.",
"A statement about all materials, EOS and steps.",
[MC+":TestUpdate"])
p("C84","Modifiers report mean atomic mass and number consistently with the wrapped EOS",
"Through every modifier MeanAtomicNumber is the wrapped EOS's at the corresponding state, and MeanAtomicMass is such that the number density of atoms rho/MeanAtomicMass is that of the wrapped state (ScaledEOS divides by the scale; the others pass it on, converting the state's units).",
"For every wrapped EOS, scale, unit system, density, temperature and lambda.",
"A statement about all wrapped EOS and states.",
[MD+"scaled_eos.hpp:MeanAtomicMassFromDensityTemperature",MD+"eos_unitsystem.hpp:MeanAtomicMassFromDensityTemperature",MD+"shifted_eos.hpp:MeanAtomicMassFromDensityTemperature"])
p("C85","Spiner (density, temperature) tables invert the energy",
"For SpinerEOSDependsRhoT, TemperatureFromDensityInternalEnergy followed by a query at that temperature gives the energy, pressure, heat capacity and Gruneisen parameter of the energy query: exactly (up to the shift of the log conversion) above the table's top isotherm; on the table the temperature is within the root-find threshold of one that has exactly the energy asked for; at or below the cold curve the table's lowest temperature is returned and the cold-curve values are reported.",
"For every table, density, energy and lambda contents.",
"All tables and states; unit tests load one SESAME file and sample it.",
[E+"eos_spiner_rho_temp.hpp:lTFromlRhoSie_",E+"eos_spiner_rho_temp.hpp:TemperatureFromDensityInternalEnergy"])
p("C86","Spiner (density, temperature) tables invert the pressure",
"For SpinerEOSDependsRhoT, DensityEnergyFromPressureTemperature returns a density whose log is within the root-find threshold of one with exactly the requested pressure at that temperature, for temperatures below, on and above the table.",
"For every table, pressure, temperature and lambda contents.",
"All tables and states.",
[E+"eos_spiner_rho_temp.hpp:lRhoFromPlT_",E+"eos_spiner_common.hpp:prod_interp_1d"])
p("C87","Spiner (density, temperature) FillEos agrees with the single queries",
"For SpinerEOSDependsRhoT, each quantity FillEos is asked for is what the corresponding single query returns for the given inputs (density and temperature; density and energy; pressure and temperature; density and pressure), and inputs are not modified.",
"For every table, state, lambda contents and set of requested outputs.",
"All combinations of flags, states and tables.",
[E+"eos_spiner_rho_temp.hpp:FillEos"])
p("C88","Spiner (density, temperature) heat capacity and bulk modulus are positive",
"For SpinerEOSDependsRhoT, specific heats and bulk moduli returned are at least robust::EPS, and every bulk modulus stored on loading is at least robust::EPS and is the isentropic bulk modulus of the tabulated derivatives where these are positive.",
"For every table (also with negative or zero derivatives), state and lambda.",
"A bound for all tables and states.",
[E+"eos_spiner_rho_temp.hpp:SpecificHeatFromDensityTemperature",E+"eos_spiner_rho_temp.hpp:BulkModulusFromDensityInternalEnergy",E+"eos_spiner_rho_temp.hpp:fixBulkModulus_"])
p("C89","Spiner cold critical temperature",
"The temperature below which the cold curve is used at a density is at least the table's lowest temperature, and is where the isochore's energy last crosses the cold energy upwards.",
"For every table, density and number of grid points.",
"All tables of all sizes.",
[E+"eos_spiner_rho_temp.hpp:setlTColdCrit_"])
p("C90","Spiner (density, temperature) extrapolation continues the table",
"At the top isotherm the ideal-gas extrapolation of SpinerEOSDependsRhoT takes the same energy and pressure as the table.",
"For every table and density.",
"All tables.",
[E+"eos_spiner_rho_temp.hpp:PressureFromDensityTemperature",E+"eos_spiner_rho_temp.hpp:InternalEnergyFromDensityTemperature"])
p("C91","The lambda cache of Spiner (density, temperature) tables does not change answers",
"What is in the caller's lambda does not change any answer by temperature nor any answer by energy off the table; on the table, where the isochore rises at least at rate m, two lambdas change the (log) temperature by at most 2 max(thr, 2 thr/m) with thr the root-find threshold.",
"For every table, state and pair of lambda contents, i.e. every history of earlier calls.",
"Every history of calls.",
[E+"eos_spiner_rho_temp.hpp:lTFromlRhoSie_",E+"eos_spiner_rho_temp.hpp:Lambda"])
p("C92","Spiner (density, energy) FillEos agrees with the single queries",
"For SpinerEOSDependsRhoSie, each quantity FillEos is asked for is what the corresponding single query returns for the given inputs, and inputs are not modified.",
"For every table, energy transform, state, lambda contents and set of requested outputs.",
"All combinations of flags, states and tables.",
[E+"eos_spiner_rho_sie.hpp:FillEos"])
p("C93","The energy transform of Spiner (density, energy) tables is applied to every query by energy",
"For SpinerEOSDependsRhoSieTransformable every query by energy (temperature, pressure, heat capacity, bulk modulus, Gruneisen parameter, mass fractions) evaluates the tables at the transformed energy, so that mass fractions by energy are those at the temperature of that energy.",
"For every table, transform, density and energy.",
"All transforms and states; tests use the null transform for these queries.",
[E+"eos_spiner_rho_sie.hpp:interpRhoSie_",E+"eos_spiner_rho_sie.hpp:GruneisenParamFromDensityInternalEnergy",E+"eos_spiner_rho_sie.hpp:MassFractionsFromDensityInternalEnergy"])
p("C94","Spiner (density, energy) tables invert the pressure",
"For SpinerEOSDependsRhoSie, DensityEnergyFromPressureTemperature returns a density whose pressure at that temperature is the requested one: on the table the log density is within robust::EPS of an exact solution; above the pressure of the highest tabulated density the density is the linear extrapolation of the isotherm.",
"For every table, pressure, temperature and lambda contents.",
"All tables and states.",
[E+"eos_spiner_rho_sie.hpp:lRhoFromPlT_",E+"eos_spiner_rho_sie.hpp:DensityEnergyFromPressureTemperature"])
p("C95","The reference state of Spiner tables is a state of the EOS",
"ValuesAtReferenceState returns a density and temperature on the table, the energy, pressure, heat capacity, bulk modulus and dP/de of the single queries there, and dv/dT at constant pressure there.",
"For every table, normal density and table range.",
"All tables, also those that do not contain normal density or room temperature.",
[E+"eos_spiner_rho_sie.hpp:ValuesAtReferenceState",E+"eos_spiner_rho_sie.hpp:loadDataboxes_",E+"eos_spiner_rho_temp.hpp:ValuesAtReferenceState"])
p("C96","sesame2spiner stores the derivatives the table EOS expect",
"At every grid point the tables written by sesame2spiner hold the material's cgs pressure, energy and temperature, dP/drho and dT/drho at constant energy, dE/drho at constant temperature, dP/dE, dT/dE, dE/dT at constant density and the isentropic bulk modulus floored at zero, if EOSPAC returns exact values and derivatives; they satisfy the reciprocity relations.",
"For every material (any differentiable functions), grid point and unit conversion.",
"Derivative identities for arbitrary functions.",
["sesame2spiner/io_eospac.cpp:eosDataOfRhoT","sesame2spiner/io_eospac.cpp:eosDataOfRhoSie","eospac-wrapper/eospac_wrapper.hpp:getBulkModulus"])
p("C97","StellarCollapse queries by energy are queries by temperature at the inverted temperature",
"For StellarCollapse, every query by density and energy equals the query by density and temperature at the temperature TemperatureFromDensityInternalEnergy reports (the bulk modulus up to the floor only the temperature query has); energies at or below the cold curve give the lowest and those at or above the hot curve the highest tabulated temperature; in between, at the densities and electron fractions of the table, where stored log energies rise at least at rate m along temperature, the temperature found is within max(thr, 2 thr/m) (in log10) of the exact inverse.",
"For every table, density, energy, electron fraction and cached temperature.",
"All tables, states and histories of the cache.",
[E+"eos_stellar_collapse.hpp:lTFromlRhoSie_",E+"eos_stellar_collapse.hpp:TemperatureFromDensityInternalEnergy",E+"eos_stellar_collapse.hpp:PressureFromDensityInternalEnergy"])
p("C98","The minimum energy of StellarCollapse is the least energy of the table",
"MinInternalEnergyFromDensity is the energy at the lowest tabulated temperature, no energy at a temperature of the table is below it, and none is above the hot curve.",
"For every table loaded from a file, density and electron fraction.",
"All tables and states.",
[E+"eos_stellar_collapse.hpp:MinInternalEnergyFromDensity",E+"eos_stellar_collapse.hpp:computeColdAndHotCurves_"])
p("C99","The median filter of StellarCollapse removes exactly the outliers",
"With filter_bmod set, the derivative tables are changed exactly at the entries at least three away from every face that differ from the median of the 7x7x7 entries around them (in the unfiltered table) by more than ten times its magnitude, and there become that median; no entry outside the table is read.",
"For every table of every size.",
"All tables.",
[E+"eos_stellar_collapse.hpp:medianFilter_",E+"eos_stellar_collapse.hpp:fillMedianBuffer_",E+"eos_stellar_collapse.hpp:findMedian_"])
p("C100","The bulk modulus StellarCollapse computes is the isentropic one",
"The bulk modulus built on loading is rho dP/drho along an isentrope for a pressure with the file's derivatives, and never below robust::EPS.",
"For every entry of every table and every pressure and energy function with those derivatives.",
"Derivative identity for arbitrary functions.",
[E+"eos_stellar_collapse.hpp:computeBulkModulus_"])
p("C101","Re-gridding of a stellarcollapse.org file keeps its values and range",
"At every point of the look-up grid each table returns the file's own interpolation there (log-log for energy and pressure), and the range of validity is the file's, with temperature in K.",
"For every file and grid point.",
"All files.",
[E+"eos_stellar_collapse.hpp:LoadFromStellarCollapseFile_",E+"eos_stellar_collapse.hpp:dataBoxToFastLogs",E+"eos_stellar_collapse.hpp:ChemicalPotentialsFromDensityTemperature"])
p("C102","StellarCollapse FillEos agrees with the single queries",
"Each quantity FillEos is asked for is what the corresponding single query returns for the given inputs, inputs are not modified, and the call stops exactly when nothing is asked for, the density is, or both temperature and energy are.",
"For every table, state, lambda and set of requested outputs.",
"All combinations of flags, states and tables.",
[E+"eos_stellar_collapse.hpp:FillEos"])
p("C103","The reference state of StellarCollapse is a state of the EOS",
"ValuesAtReferenceState returns a state inside the table, with the energy, pressure, heat capacity, bulk modulus and dP/de of the single queries there and dv/dT at constant pressure.",
"For every table.",
"All tables.",
[E+"eos_stellar_collapse.hpp:setNormalValues_",E+"eos_stellar_collapse.hpp:ValuesAtReferenceState"])
p("C104","StellarCollapse tables survive Save and reload",
"An EOS loaded from a stellarcollapse.org file, written with Save and loaded from that file, is the same EOS (every table, curve, size, bound and the energy shift), any number of times.",
"For every file, filter setting and number of rounds.",
"All tables, any number of rounds.",
[E+"eos_stellar_collapse.hpp:Save",E+"eos_stellar_collapse.hpp:LoadFromSP5File_"])
p("C105","StellarCollapse inverts the pressure",
"DensityEnergyFromPressureTemperature returns a density with the requested pressure at that temperature (log density within the root-find threshold of an exact solution) and the energy there, or reports failure.",
"For every table, pressure, temperature, electron fraction and starting density.",
"All tables and states.",
[E+"eos_stellar_collapse.hpp:DensityEnergyFromPressureTemperature"])
EP=E+"eos_eospac.hpp"
EW="eospac-wrapper/eospac_wrapper.cpp"
p("C106","EOSPAC queries are pure: right units, no trace in the library",
"Every scalar query of the EOSPAC class returns the tabulated value (or the named combination of tabulated derivatives) in cgs units, and leaves the conversion options of the EOSPAC tables as after loading; hence after any history of operations every operation answers what it would have answered right after loading.",
"For all tables, arguments, contents of uninitialised locals, and all finite histories of operations.",
"Histories are unbounded and the state is hidden in an external library.",
[EP+":TemperatureFromDensityInternalEnergy",EP+":PressureFromDensityInternalEnergy",EP+":MinInternalEnergyFromDensity",EW+":eosSafeInterpolate"])
p("C107","EOSPAC queries from several host threads do not disturb each other",
"When several threads query the same EOSPAC object, every thread gets the answer it would get alone, for every interleaving of their library calls.",
"For any number of threads, any operations, any schedule.",
"Interleavings are unbounded; races are not reproducible in tests.",
[EP+":PressureFromDensityInternalEnergy",EP+":MinInternalEnergyFromDensity",EW+":eosSafeInterpolate"])
p("C108","eosSafeInterpolate reports success exactly when the lookup succeeded",
"The Boolean returned by eosSafeInterpolate ('1 for no errors') is true exactly when the table lookup had no error, whatever options and verbosity were passed.",
"For all option lists, verbosities and outcomes of the library calls.",
"Depends on error behaviour of the external library.",
[EW+":eosSafeInterpolate"])
p("C109","EOSPAC FillEos agrees with the single queries",
"For each accepted combination of outputs, FillEos stores exactly the requested quantities, each equal to the single query at the state determined by the inputs (density and temperature, pressure and temperature, density and pressure, or density and energy), and leaves the others alone.",
"For all tables, states, accepted output combinations and contents of the output-only arguments.",
"All combinations, states and stale contents.",
[EP+":FillEos"])
p("C110","EOSPAC table selection is uniform",
"With a table split selected (electron only, ion plus cold) every query is answered from the tables of that part; in particular the minimum energy is a lower bound of the energy.",
"For all materials and selections.",
"Quantifies over all data files.",
[EP+":EOSPAC"])
p("C111","EOSPAC derivative queries are derivatives of its other queries",
"Where the tables are differentiable and mutually consistent with positive heat capacity, temperature and energy invert each other, by-temperature and by-energy queries agree, heat capacity and Gruneisen parameter are the derivatives they are named after, and the bulk modulus is the isentropic derivative of the pressure clipped at zero.",
"For all such tables and states.",
"Derivatives at all states.",
[EP+":FillEos",EP+":GruneisenParamFromDensityTemperature"])
p("C112","EOSPAC pressure-temperature derivatives are true derivatives",
"PTDerivativesFromPreferred returns the derivatives by pressure and temperature of density and energy as functions of pressure and temperature.",
"For all differentiable tables with dP/drho nonzero and every differentiable local solution of P(rho,T)=P.",
"Derivatives at all states.",
[EP+":PTDerivativesFromPreferred"])
p("C113","EOSPAC reference state is a state of the EOS",
"ValuesAtReferenceState reports the normal density, 293 K and the pressure, energy, heat capacity, bulk modulus and dp/de of the queries there, and dv/dT = (dP/dT)/(rho^2 dP/drho).",
"For all tables and normal densities.",
"Quantifies over all tables.",
[EP+":EOSPAC",EP+":ValuesAtReferenceState"])
p("C114","EOSPAC array calls honour the Transform and stay in their scratch",
"Every array call with scratch writes in slot i the f factor times the scalar answer at the x and y factors times the inputs, writes nothing but the output and the scratch declared by scratch_size, and leaves the library as after loading.",
"For all tables, lengths, inputs, prior contents of output and scratch, and transforms with positive factors.",
"Lengths and contents are unbounded; buffer overlaps depend on them.",
[EP+":BulkModulusFromDensityInternalEnergy",EP+":SetUpDensityEnergyScalingOptions",EP+":scratch_size"])
p("C115","EOSPAC array FillEos leaves inputs alone and fills what was requested",
"The array FillEos stores in each slot the requested quantities at the state determined by the inputs and leaves the arrays that were not requested alone.",
"For all tables, lengths, contents and accepted output combinations.",
"All lengths, contents and combinations.",
[EP+":FillEos"])
p("C116","sesame2spiner reads its input decks as written",
"From a set of decks made of blank lines, comments, headers <name> and assignments key = value the tool reads all materials in order, each with the last value assigned to every key and the material number after matid; a material without matid and an unclosed header are rejected; any other line is rejected.",
"For all decks: any number of files, lines, materials and keys, any text.",
"Decks are unbounded texts.",
["sesame2spiner/parser.cpp:parse_file","sesame2spiner/parser.cpp:add_param","sesame2spiner/parser.cpp:AddMaterials"])
p("C117","sesame2spiner obeys its command line",
"Whatever the order of the arguments, the tool reads the files given, in order, writes to the file after the last -s or materials.sp5, prints metadata if -p is given and uses the highest verbosity asked for; -h prints the help, no file prints the usage; every option is taken as an option.",
"For all command lines.",
"Command lines are unbounded sequences.",
["sesame2spiner/parse_cli.cpp:parseCLI"])
p("C118","sesame2spiner writes each material once, under a name of its own",
"Each material number is written exactly once, with the parameters given first, in the order asked for; it is linked under the name of the deck, else that of the library, else material_i, with _2, _3, ... for repeated names; no two materials are linked under the same name.",
"For all sets of materials, names and numbers.",
"Any number of materials and coincidences of names.",
["sesame2spiner/generate_files.cpp:saveAllMaterials"])
p("C119","sesame2spiner grids span what the user or the data say",
"The density, temperature and energy grids begin and end where the user said, else at the ends of the data (density and temperature no lower than 1e-8 and 1e-2), shrunk by the user's factor brought into [0,1]; their pieces adjoin; they are refined around the user's centre or the normal density, in the fine region the user gave, and split at the energy of the user's split temperature.",
"For all parameter values, data ranges and logarithms.",
"Real-valued parameters and arbitrary strings.",
["sesame2spiner/generate_files.cpp:getMatBounds"])
p("C120","Python array calls are elementwise scalar calls",
"A Python query on arrays stores at every position of the output array the scalar answer for that position's inputs and lambda values, leaves in the lambda array what the scalar query leaves there, and touches no other memory; for any strides, any order of the loop, and in place when earlier points do not overwrite what later ones read. The scalar call uses the lambda array passed. With scratch memory (EOSPAC) the same holds for packed arrays, and others are refused (false in release builds).",
"For all queries, lengths, strides, memory contents and overlaps.",
"Lengths, strides and overlaps are unbounded.",
["python/module.hpp:PyArrayHelper","python/module.hpp:LambdaHelper","python/module.hpp:EOS_VEC_FUNC_TMPL","python/module.hpp:two_params"])
p("C121","Python FillEos with keywords and on arrays",
"FillEos(**kwargs) takes the keywords passed as inputs; with output given it computes exactly those quantities from them, and without it the quantities not passed. What was passed and not asked for comes back unchanged. On arrays, FillEos is the scalar FillEos at every point, for any strides, and touches nothing else (false for EOSPAC, which takes strided arrays as packed).",
"For all EOS that honour their flags, all sets of keywords and values, all arrays.",
"All keyword sets and real values.",
["python/module.hpp:eos_class","example/get_sound_speed_press.py"])
p("C122","The Fortran interface reaches the C interface with the same meaning",
"A Fortran query stores the scalar answer of every element in the same element and changes nothing else; materials are numbered from 1 and a query uses the last EOS set for that number; optional arguments have their documented defaults; modifier arrays are not changed, so calls can be repeated; per-material fractions are found where Fortran stores them; finalising leaves a Kokkos started by the host running.",
"For all arrays, shapes, lambdas, histories of initialisations and modifier arrays.",
"Shapes, histories and contents are unbounded.",
["singularity-eos/eos/singularity_eos.f90:get_sg_PressureFromDensityInternalEnergy_f","singularity-eos/eos/singularity_eos.f90:init_sg_IdealGas_f","singularity-eos/eos/singularity_eos.f90:init_sg_CarnahanStarling_f","singularity-eos/eos/singularity_eos.f90:init_sg_eospac_f","singularity-eos/eos/singularity_eos.f90:get_sg_eos_f","singularity-eos/eos/singularity_eos.f90:finalize_sg_eos_f","singularity-eos/eos/singularity_eos.cpp:lambdaIndexer2D"])
p("C123","The Helmholtz table file is read as published and reproduced",
"Constructing Helmholtz from a table file succeeds exactly when the file has all the numbers of a table; each number ends up in its own table at its own density and temperature; the grid is the published one; every state is looked up in its own cell; and at the densities and temperatures of the table the electron answers are those of the file. A table of another shape is rejected.",
"For all contents of the file, all states, and whatever the memory held before.",
"The contents of the file and the states are unbounded; the tests use one file.",
["singularity-eos/eos/eos_helmholtz.hpp:HelmUtils::SetTablesFromFile","singularity-eos/eos/eos_helmholtz.hpp:HelmElectrons::InitDataFile_","singularity-eos/eos/eos_helmholtz.hpp:HelmElectrons::GetFromDensityTemperature"])
p("C124","What sesame2spiner writes is what the Spiner EOS read",
"Every material written by sesame2spiner to an sp5 file can be loaded by SpinerEOSDependsRhoT and SpinerEOSDependsRhoSie, by its number or by its name, and the EOS then has that material's number, offsets, normal density and composition, and tables that hold, at every grid point, the library's value of pressure, energy, temperature, bulk modulus and each derivative in cgs units, of the requested part (total, electrons, ions with cold curve); the mass fractions are each phase's own. A part that was not written, an unknown material, or a file made with another kind of logarithm is refused.",
"For all libraries, all lists of materials with their grids, all parts, all sizes of grids and numbers of phases.",
"The libraries, lists and grids are unbounded; the tests use a few materials and compare a few points within a tolerance.",
["sesame2spiner/io_eospac.cpp:eosDataOfRhoT","sesame2spiner/io_eospac.cpp:eosDataOfRhoSie","sesame2spiner/io_eospac.cpp:eosColdCurves","sesame2spiner/io_eospac.cpp:eosMassFraction","sesame2spiner/generate_files.cpp:saveMaterial","sesame2spiner/generate_files.cpp:saveAllMaterials","singularity-eos/eos/eos_spiner_rho_temp.hpp:loadDataboxes_","singularity-eos/eos/eos_spiner_rho_sie.hpp:loadDataboxes_"])
p("C125","EOSPAC tables get the options asked for and are released",
  "eosSafeLoad sets on each table exactly the options requested for its type before loading and reports failures; eosGetMetadata returns the entries of the data file in cgs units and the material name of the comments; the table-existence check is right; a constructed EOSPAC object has its tables loaded; and no metadata request, existence check, tabulation or finalized object leaves tables in the library.",
  "For all table lists, options, materials, library behaviours (any error at any call) and any sequence of operations.",
  "The behaviour of the external library, its failures and the history of calls are unbounded.",
  ["eospac-wrapper/eospac_wrapper.cpp:eosSafeLoad","eospac-wrapper/eospac_wrapper.cpp:eosGetMetadata","eospac-wrapper/eospac_wrapper.cpp:eosCheckTableExistence","eospac-wrapper/eospac_wrapper.cpp:getName","sesame2spiner/io_eospac.cpp:eosColdCurves","singularity-eos/eos/eos_eospac.hpp:EOSPAC"])
p("C126","Modifiers can be stacked and removed through the variant, and names tell the results apart","Variant::Modify<M>(args) returns exactly the modifier around the held EOS when the variant has that type and the modifier's constructor accepts the arguments, and stops the program otherwise (it never returns the EOS unmodified); EOSBuilder::is_modifiable predicts which. After any sequence of modifications UnmodifyOnce undoes the last, GetUnmodifiedObject returns the original EOS, IsModified says whether there were any; further UnmodifyOnce calls change nothing. The default variant accepts exactly the sequences shift, scale, ramp with any of them left out, and is closed under removing modifiers. EosType (and EosPyType) differ for different types, however deeply modified, so AvailableEOSs lists every alternative. Every EOS whose modified forms are Python classes is a Python class itself, under its EosPyType (false for Vinet, MGUsup, PowerMG and the (density, energy) tables).","every variant list, every sequence of modifications, every object","modifier stacks are unbounded and the accepted sequences are determined by compile-time lists",["singularity-eos/eos/eos_variant.hpp:Modify,UnmodifyOnce,GetUnmodifiedObject,IsModified,AvailableEOSs","singularity-eos/eos/eos_base.hpp:ModifiedInList,ConditionallyModify,UnmodifyOnce","singularity-eos/eos/eos_builder.hpp:is_modifiable","python/module.cpp"])
p("C127","Debug builds of the C interface stop exactly on unusable values","In a debug build get_sg_eos stops on input exactly when some normalised mass fraction, the pressure, the energy or the specific volume is NaN, infinite, subnormal or within 1e10 of overflow, and on output exactly when, besides that, a quantity that must be positive is not; error_utils::negative_value flags negative values. (It also flags zero: a cold state with temperature, heat capacity or Gruneisen parameter zero stops the program.)","every cell state, any number of materials, any rounding","needs every class of double (NaN, infinities, subnormal, nearly overflowing) in every position",["singularity-eos/base/error_utils.hpp","singularity-eos/eos/get_sg_eos_functors.hpp:check_all_vals"])

p("C128","EOSPAC objects survive serialisation, and their tables are released",
"A deserialised EOSPAC object, alone or in a list, in another process, from a private buffer or a shared block, answers every query like the one that was serialised, with the number of bytes announced, new table handles that are the ones it later releases, and no effect on other tables; without a shared block a shared build stops. Each table is destroyed exactly once, as for the other EOS even if an object is finalised twice or has a device copy (violated).",
"every library that keeps its packing contract, every object, process state, buffer address, shared block and list length; every program of constructions, deserialisations and finalisations",
"a test serialises one material in one process; handles, offsets of later objects in a list and the shared block depend on the history",
["singularity-eos/eos/eos_eospac.hpp:EOSPAC::SetDynamicMemory","singularity-eos/eos/eos_eospac.hpp:EOSPAC::DumpDynamicMemory","singularity-eos/eos/eos_eospac.hpp:EOSPAC::Finalize","singularity-eos/base/serialization_utils.hpp:BulkSerializer"])
p("C129","Error messages name the EOS and fit their buffer",
"The message of a query that is not enabled is the fixed text with the name of the EOS in it, null terminated, and building it writes nothing outside its buffer, for every name up to the documented length (44 characters; violated: 43 for the minimum energy).",
"every name, every content of memory around the buffer, debug and release builds",
"tests use the names of the library, and writing one byte past a local array usually goes unnoticed",
["singularity-eos/eos/eos_base.hpp:StrCat","singularity-eos/eos/eos_base.hpp:EntropyIsNotEnabled","singularity-eos/eos/eos_base.hpp:MinInternalEnergyIsNotEnabled"])
p("C130","A PTE solve returns a physical state whatever happens","Whatever the equations of state, the linear solver, the tolerances and the outcome (converged, stalled, failed), the arrays a PTE solver returns hold each material's mass, positive volume fractions, a non-negative temperature (common to all materials for RhoT, PT, FixedP), and per material an energy and a pressure that are those of its own EOS at its density and temperature, up to the SMALL guards; PT returns one pressure. Exceptions: RhoT and RhoU may return the pressure handed in if they take no step and the EOS prefers pressure as an input; FixedT leaves the temperature array alone (its temperature is the given one).","every EOS, material count, parameters, linear solver and iteration history of the five solvers; for RhoU, starting guesses with non-zero pressures and non-zero total energy","an exit in the middle of a line search, or before the first step, leaves other arrays than a converged solve",
[MC+":PTESolver",MC+":PTESolverRhoT::Init",MC+":PTESolverBase::Finalize",MC+":PTESolverPT::Finalize",MC+":PTESolverRhoU::TestUpdate",MC+":TryIdealPTE"])
p("C131","A converged PTE solve is an equilibrium of the equations of state","If a PTE solver reports convergence then, evaluated at the returned densities, energies and temperatures, the materials' EOS pressures (and for RhoU temperatures) agree within the tolerance, and the totals the caller prescribed (volume, energy, temperature or pressure) are met within the tolerance.","every EOS, material count, parameters, linear solver and iteration history","the residual the test reads may not belong to the arrays that are returned",
[MC+":PTESolver",MC+":CheckPTE",MC+":Residual",MC+":InitBase",MC+":PTESolverRhoU::CheckPTE"])
p("C132","A PTE solve does not depend on what its scratch memory held","Two PTE solves called with the same material arrays, totals, parameters and normalisation temperature give the same status, iteration counts and material arrays, whatever the scratch memory handed to them contained and whatever the solver object's members held before Init.","every EOS, material count, parameters, linear solver, and any two contents of scratch memory and unset members","a test's fresh scratch is usually zero; a dependence on stale memory shows only for some earlier contents",
[MC+":PTESolver",MC+":PTESolverBase::InitBase",MC+":GetTguess",MC+":TryIdealPTE",MC+":PTESolverFixedP::Init",MC+":uscale",MC+":utotal_scale"])
p("C133","The compensated summation loses only second-order round-off",
"In binary floating point with rounding to nearest and no overflow, sum_neumaier returns the exact sum of the selected terms up to one rounding of that sum plus at most 3 n^2 u^2 times the sum of absolute values (u the unit round-off, 4 n u <= 1); so up to a million non-negative doubles are summed to a relative error of 2^-52 and integers below 2^53 exactly.",
"For every array of floating-point numbers, length, offset, skipped index and tie-breaking rule.",
"Rounding errors depend on every bit of every term; tests see a few sums.",
[MC+":sum_neumaier"])
p("C134","regula_falsi keeps its root near the interval in floating point",
"With every operation rounded and no overflow or underflow, regula_falsi stops within 1000 iterations and, when the computed residual changes sign over [a,b], reports a root in [a,b] up to the accumulated rounding, (1+5u)^1001-1 times the size of the ends (below 2^-40 of it in double precision), for every function. A run reported as a success ends between two points where the computed residual has opposite signs and whose computed distance is at most 2 xtol or one of whose residuals is at most ytol, or at a point where the computed residual is zero or where the computed secant is one of its own ends. Without rounding it is the regula_falsi of real arithmetic.",
"For every function, target, guess, interval with non-negative tolerances and rounding.",
"Rounding of the secant point depends on every bit of the residuals; a bad combination is found by one pair of numbers in billions.",
["singularity-eos/base/root-finding-1d/root_finding.hpp:regula_falsi","singularity-eos/base/root-finding-1d/root_finding.hpp:check_bracket"])
p("C135","The robust helpers on machine numbers",
"On doubles, with rounding, overflow, infinities and NaN: ratio(a,b) is NaN only if an argument is NaN or both are infinite; it is at most 1 in size when |a|<=|b|; it is the correctly rounded a/b for every b that is not tiny; it is finite for every finite a and b; make_positive is at least EPS unless given NaN; make_bounded is strictly inside its interval.",
"For every pair of machine numbers and every rounding to nearest.",
"Special values and rounding boundaries are not reached by a finite set of tests.",
["singularity-eos/base/robust_utils.hpp:ratio","singularity-eos/base/robust_utils.hpp:make_positive","singularity-eos/base/robust_utils.hpp:make_bounded","singularity-eos/base/robust_utils.hpp:sgn"])
p("C136","The residual PTESolver reports is that of the state it returns",
"SolverStatus::residual equals half the sum of the squares of what the solver's equilibrium equations leave over when evaluated on the arrays the solver hands back (energies and pressures in units of the solver's energy scale); it is zero exactly when the equilibrium equations hold.",
"every input state, equation of state, linear solver, parameter set with at least one line-search pass, number of materials, and every way the solve can end, for the five solver classes",
"tests compare the returned state with a tolerance and never check the reported residual, and a stale one shows only when the reference material changes on the last pass",
[MC+":PTESolver",MC+":SolverStatus",MC+":ResidualNorm",MC+":PTESolverRhoT::Fixup"])
p("C137","Ideal gas in machine arithmetic","In double precision, with rounding, overflow, infinities and NaN: no ideal gas lookup is negative for any argument; away from underflow and overflow every lookup is the exact value up to a fixed number of roundings (1 for energy and temperature, 2 for the pressure of an energy, 3 of a temperature, 4 and 5 for the bulk modulus); T to e to T and e to T to e return the start up to 2 roundings, density to pressure to density up to 6, pressure to energy to pressure up to 2, both routes to the pressure agree up to 6 and the reference state is consistent; pressure, bulk modulus, temperature and energy are monotone for all machine numbers. Fails: an intermediate overflow gives an infinite or NaN pressure where the exact one is a double; zero pressure and temperature give a NaN density; parameters of zero are accepted and give NaN.","all roundings to nearest (any tie rule), all machine numbers, all parameters","errors of the last bit, and NaN, depend on the particular bits of the argument; a test covers finitely many of the 2^64 arguments and usually compares with a loose tolerance",["singularity-eos/eos/eos_ideal.hpp: IdealGas::PressureFromDensityInternalEnergy, TemperatureFromDensityInternalEnergy, DensityEnergyFromPressureTemperature, InternalEnergyFromDensityPressure, IdealGas::IdealGas, MYMAX"])
p("C138","Scale and shift modifiers in machine arithmetic","In double precision, for any wrapped equation of state: a scaled one receives the scaled density up to one rounding and the scaled energy up to two, and exactly when the scale is a power of two; a density and energy it returned come back to the wrapped one up to three roundings. A shifted one receives the difference up to one rounding, monotonically, and exactly when energy and shift share a power of two; a round trip changes an energy by at most 3 2^-53 (|e|+|shift|). Fails: a shift of 2^60 turns temperature 1 into 0 for an ideal gas; the reported density bounds of a scaled one lie outside the wrapped domain by a rounding.","all wrapped equations of state, all roundings to nearest, all finite arguments","rounding depends on the bits of scale, shift and argument; tests use a few and a tolerance",["singularity-eos/eos/modifiers/scaled_eos.hpp: ScaledEOS","singularity-eos/eos/modifiers/shifted_eos.hpp: ShiftedEOS"])
p("C139","The example plug-in EOS","For the pressureless Dust plug-in, temperature and energy are inverse, its pressure and heat capacity are consistent with its energy, the temperature is not negative exactly at or above its minimum energy, and FillEos gives the temperature of an energy. Fails: FillEos cannot give the energy of a temperature (it aborts, or returns the energy of a stale temperature), overwrites pressure, bulk modulus and heat capacity unasked, the reference state is consistent only for Cv = 1 and leaves the heat capacity unset, and the entropy is not a potential of the heat capacity.","all heat capacities, states and output sets","the laws hold for all reals and output sets, a test covers a few",["example/plugin/dust/dust.hpp: Dust"])
p("C140","Arrays seen through index maps","Reading or assigning an element of a GenericIndexer, nested to any depth, reads or changes exactly the element of the underlying array that its maps lead to and nothing else; an indexer made from a temporary array works on its own copy and changes no array of the program; a map passed as a variable is read at the time of the access and one passed as a temporary is fixed; filling n elements through maps that do not repeat an element puts the values where the indexer reads them and leaves all other elements alone; indexers that lead to different elements do not disturb each other.","all nestings of indexers, arrays, pointers, maps, elements and values","tests use one offset map on one flat array; aliasing and lifetime errors show only for other nestings and maps",["singularity-eos/base/generic_indexer.hpp: GenericIndexer"])
p("C141","Kinetic phase transitions in machine arithmetic","In double precision with NaN and infinities: SortGibbs returns an ordering of all phases in which none is followed by one with a larger Gibbs energy, NaN ones staying in place; when no exponent is NaN every new mass fraction and transfer of SmallStepMFUpdate is finite and not negative and the total mass is kept up to n(n-1) roundings and KPT_MIN_MASS_FRACTION per phase, even if exp overflows; LogMaxTimeStep is never NaN, at most 1 and at most minus the logarithm of each rate that is a number. Fails: an infinite rate makes the recommended step -inf and with it the mass fractions NaN; with a finite step a phase without mass that receives some and has an infinite rate becomes NaN.","all roundings to nearest, all library log and exp with the stated special values, all numbers of phases, masses, rates, orders and previous contents","the bounds hold for all bit patterns and phase counts; a test has a handful of phases and compares with a tolerance that hides a lost phase",["singularity-eos/closure/kinetic_phasetransition_methods.hpp: SmallStepMFUpdate","singularity-eos/closure/kinetic_phasetransition_models.hpp: LogMaxTimeStep, LogRatesCGModel","singularity-eos/closure/kinetic_phasetransition_utils.hpp: SortGibbs"])
p("C142","Root-finder statistics describe the iterations made",
"The counters a root finder is given hold, after a reset and any sequence of calls, the number of calls that took exactly i iterations in bin i and those that took 14 or more in the last bin; no increment is out of bounds, total() is the number of calls recorded, and a call records nothing only if it never found a bracket (or is a plain bisection). The iteration number recorded is the index of the first iterate at which the method's own stopping rule holds, and the value returned is that iterate.",
"every sequence of calls, callable, target, guess, bracket and tolerance",
"Ranges over all histories of calls and all callables.",
[V+"root-finding-1d/root_finding.hpp:RootCounts",V+"root-finding-1d/root_finding.hpp:regula_falsi",V+"root-finding-1d/root_finding.hpp:newton_raphson",V+"root-finding-1d/root_finding.hpp:secant",V+"root-finding-1d/root_finding.hpp:findRoot"])
p("C143","The example programs do what they say",
"eos_grid fills entry (j, i) of the table it saves with the pressure at density j and temperature i of logarithmic grids with the requested ends, and touches no other memory; map_pt_space reports for each volume fraction either a marked failure or a temperature inside the search interval around which the mixture energy passes the total, with the pressures and residuals at it; pte_2mat starts the solver from volume fractions that sum to one and densities with the given masses, and its tolerances mean what they say; the two loops of get_sound_speed_press agree for every EOS whose FillEos agrees with its queries; no program reads a missing argument. Fails: the host loop of eos_grid has its limits exchanged, so it is right only for square tables and otherwise overruns the table or saves values from behind the temperature array; map_pt_space draws the map down to temperature -1 when every search fails; pte_2mat, map_pt_space and eos_grid accept command lines too short for what they read.",
"all grid sizes, EOS functions, masses, energies, volume fractions, array lengths and argument counts",
"The programs have no tests; the exchanged loop limits are invisible on square grids.",
["example/eos_grid.cpp:main","example/map_pt_space.cpp:main","example/pte_2mat.cpp:main","example/get_sound_speed_press.cpp:PressureSoundSpeedFromDensityEnergyDensity","example/get_sesame_state.cpp:main","example/get_spiner_bounds.cpp:main"])
p("C144","Stiffened gas in machine arithmetic","In double precision, with rounding, overflow, infinities and NaN: for every argument the temperature, bulk modulus and density are at least SMALL, the pressure at least -Pinf, the energy at least q; at fixed density the energy is monotone in the temperature, and temperature, pressure and bulk modulus in the energy (or temperature), up to the infinities. Away from overflow the energy of a temperature is exact up to 5 roundings; temperature, pressure and bulk modulus of an energy are off by a fixed number of roundings of the terms whose difference they are; density and energy of a pressure and temperature are exact up to 4 and 8 roundings; temperature to energy to temperature changes T by at most 66 roundings of e/Cv. Fails: NaN arguments give ordinary numbers (the floors); where Pinf dominates the temperature is lost altogether (rho = Cv = 1, Pinf = 2^60: T = 1 comes back as SMALL).","all roundings to nearest (any tie rule), all machine numbers, all parameters","cancellation against Pinf depends on the bits of the argument and the size of the parameters; a test uses a few and a tolerance",["singularity-eos/eos/eos_stiff.hpp: StiffGas::TemperatureFromDensityInternalEnergy, InternalEnergyFromDensityTemperature, PressureFromDensityTemperature, PressureFromDensityInternalEnergy, BulkModulusFromDensityTemperature, BulkModulusFromDensityInternalEnergy, DensityEnergyFromPressureTemperature"])
p("C145","Noble-Abel gas in machine arithmetic","In double precision, with rounding, overflow, infinities and NaN: for every argument temperature, pressure, bulk modulus and density are at least SMALL and the energy at least q; below the packing limit all lookups are monotone in temperature or energy up to the infinities. The energy is exact up to 2 roundings, the temperature up to 4 of (e-q)/Cv, T to e to T up to 10 roundings of T + q/Cv; pressure, bulk modulus and Grueneisen parameter up to 18, 36 and 6 roundings divided by the free volume 1 - b rho; density of a pressure and temperature up to 4. Fails: NaN arguments give ordinary numbers; beyond the packing limit the pressure is SMALL.","all roundings to nearest (any tie rule), all machine numbers, all parameters","the loss near the packing limit depends on the bits of b and the density; a test uses a few and a tolerance",["singularity-eos/eos/eos_noble_abel.hpp: NobleAbel::TemperatureFromDensityInternalEnergy, InternalEnergyFromDensityTemperature, PressureFromDensityTemperature, PressureFromDensityInternalEnergy, BulkModulusFromDensityTemperature, GruneisenParamFromDensityTemperature, DensityEnergyFromPressureTemperature"])
p("C146","The root finders on machine numbers","On double-precision numbers with rounding, overflow, infinities and NaN, for every function, also one returning NaN or infinities: regula_falsi stops within 1000 iterations if xtol is not negative; a success of regula_falsi, newton_raphson or findRoot means that the computed stopping test held at the returned point (or, for regula_falsi, that it collapsed on a zero or on its own secant), and the roots of newton_raphson and findRoot lie in the bounds; where no operation rounds or overflows (and no divisor vanishes) the finders return exactly what they return in real arithmetic. Fails: regula_falsi never stops for a negative xtol, and reports success where the function is NaN or where the product of the end residuals underflows; findRoot reports success for a function that is NaN everywhere, or NaN at the root; newton_raphson fails for a zero target even at an exact root, and with fail_on_bound_root = false returns an infinite root as a success.","all functions on machine numbers, all machine-number arguments, all roundings to nearest","NaN, underflow and collapsed brackets are reached only through particular bits of the residuals; a test tries a few smooth functions",["singularity-eos/base/root-finding-1d/root_finding.hpp: regula_falsi, set_bracket, check_bracket, newton_raphson, findRoot, secant, bisect"])
p("C147","The PTE iteration on machine numbers","On double-precision numbers with rounding, overflow, infinities and NaN: the PTE driver stops within nmat * pte_max_iter_per_mat iterations whatever NaN or infinity the EOS returns; a converged result without the slow-convergence flag passed the convergence test, and one with it had passed the looser test before its last step; a passed convergence test means that the quantities it looks at are finite (energies and, with two or more materials, pressures for RhoT; volume fractions and energies for PT; volume fractions and pressures for FixedT and FixedP; pressures and temperatures for RhoU); the step fraction of the line search for finite errors is finite and between 1/4 - 2^-51 and 1 + 2^-51; where nothing is rounded and nothing overflows, residuals, tests and driver are the exact ones. Fails: RhoU's test passes with NaN volume fractions and energies; RhoT and FixedT pass with a NaN pressure for one material; a full step with a NaN error, any step after a NaN error, and a NaN step limit are accepted unchecked; an infinite full-step error makes the step fraction NaN; with the default parameters the driver can report convergence of a NaN state reached in its last iteration.",
"every rounding to nearest, EOS (NaN and infinities included), parameter set, number of materials and start",
"NaN and overflow occur only for states no test visits, and the driver has no test with a failing EOS.",
[MC+":PTESolver",MC+":CheckPTE",MC+":Residual",MC+":ResidualNorm",MC+":sum_neumaier"])
p("C148","The tabulated ideal gas is an ideal gas","A file written by utils/scripts/make_tabulated_ideal_sc.py with any adiabatic index above one, mean molecular weight, grid sizes (two or more) and ranges, read by StellarCollapse with or without its median filter (true logarithms), is an ideal gas at every positive density and temperature and every electron fraction, also outside the range of the table: P = rho k T/mu, e = k T/(mu (gamma-1)), cv = k/(mu (gamma-1)), bulk modulus gamma P (floors apart), with k the reader's own MeV-to-kelvin conversion, within 2e-6 of the script's Boltzmann constant. Temperature from energy is right to 2e-14 in log10 inside the table and clamped to its ends outside; density and energy from pressure and temperature are right for densities of the table whatever positive density comes in; the Gruneisen parameter is never below gamma-1 and exceeds it by at most two grid spacings; the composition is Ye protons and 1-Ye neutrons. Fails: the entropy read is P rho^-gamma, not the entropy of the gas.",
"all script arguments with gamma > 1, all table sizes, all positive densities and temperatures, all electron fractions and caches",
"The script's table is only used by hand; the reader's regridding, filter and root finding act on every entry and state.",
["utils/scripts/make_tabulated_ideal_sc.py","utils/scripts/units.py:cgs","singularity-eos/eos/eos_stellar_collapse.hpp:StellarCollapse"])
p("C149","A sesame table read by density and temperature says what the file says",
 "After SpinerEOSDependsRhoT is constructed from any well-formed file: at the file's grid points the queries return the file's pressure, energy and heat capacity and the bulk modulus of its derivatives; the extrapolation above the table starts from the file's last isotherm and below the cold curve the coefficients are those of the coldest isotherm; energy and temperature, and pressure and density, are inverse to each other on the table when the file's entries rise; the bulk modulus is positive and no pressure is below MinimumPressure(); the bounds reported are those of the table; the reference state, with its expansion coefficient, is a state of the EOS inside the table (fails for the expansion coefficient, which has the slope of the pressure at constant energy); the mass fractions are as many as the file's phases, add up to one and lie between zero and one; and the mass fraction queries write only to the lambda cells the class asks for.",
 "all files (any piecewise grids and entries), all densities, temperatures, energies, pressures, all cache contents",
 "The tables are unbounded data and every query interpolates between them; tests read one or two materials at a few states.",
 ["singularity-eos/eos/eos_spiner_rho_temp.hpp:loadDataboxes_","singularity-eos/eos/eos_spiner_rho_temp.hpp:fixBulkModulus_","singularity-eos/eos/eos_spiner_rho_temp.hpp:MassFractionsFromDensityTemperature","singularity-eos/eos/eos_spiner_rho_temp.hpp:MassFractionsFromDensityInternalEnergy","singularity-eos/eos/eos_spiner_rho_temp.hpp:ValuesAtReferenceState"])
p("C150","From EOSPAC through sesame2spiner and the file to the EOS",
 "Every material that sesame2spiner writes (any number of materials with distinct numbers and names), loaded into SpinerEOSDependsRhoT by number or name, whole or part, answers at the points of the table with what EOSPAC said there in cgs units: pressure, energy, heat capacity and mass fractions, exactly where the log of the argument is the grid point and within the table's rates times the library's shift of the log at the point itself; where EOSPAC's derivatives are consistent, the isentropic bulk modulus and the Grueneisen coefficient are those of EOSPAC; the least energy and the pressure below it are EOSPAC's cold curve; the bounds are the first and last points; and from EOSPAC's energy at a point the EOS finds that point's temperature to the tolerance.",
 "all EOSPAC libraries, all lists of materials, all grids and grid points, all cache contents",
 "It composes the writer, the file, the reader and the interpolation; a test compares a few states of one material, and needs EOSPAC.",
 ["sesame2spiner/io_eospac.cpp:eosDataOfRhoT","sesame2spiner/generate_files.cpp:saveMaterial","singularity-eos/eos/eos_spiner_rho_temp.hpp:loadDataboxes_","singularity-eos/base/spiner_table_utils.hpp:Bounds"])
p("C151","From EOSPAC through sesame2spiner and the file to the EOS by density and energy",
 "Every material that sesame2spiner writes, loaded into SpinerEOSDependsRhoSie by number or name, whole or part, answers at the points of its two tables with what EOSPAC said there in cgs units: by temperature pressure, energy, heat capacity and mass fractions, by energy temperature and pressure, and, where EOSPAC's derivatives are consistent, heat capacity, isentropic bulk modulus and Grueneisen coefficient by either; exactly where the log of the argument is the grid point, within the table's rates times the library's shift of the log at the point itself. Between two energies of the table the temperature is between EOSPAC's at these. The least energy is EOSPAC's cold curve, the bounds are the first and last points, the reference state is what the queries say at the normal density and room temperature, and above the table the density from pressure is the linear extrapolation. This should hold with every energy transform; it fails for ShiftTransform, since the tables are read at the transformed energy but written by energy.",
 "all EOSPAC libraries, all lists of materials, all grids and grid points, all energies inside the table",
 "It composes the writer, the file, the reader and the interpolation; a test compares a few states of one material, and needs EOSPAC.",
 ["sesame2spiner/io_eospac.cpp:eosDataOfRhoSie","sesame2spiner/generate_files.cpp:saveMaterial","singularity-eos/eos/eos_spiner_rho_sie.hpp:loadDataboxes_","singularity-eos/eos/eos_spiner_sie_transforms.hpp:ShiftTransform"])
p("C152","A call of get_sg_eos answers the listed cells and nothing else",
"get_sg_eos computes each listed cell from that cell's inputs only and changes no other cell, whatever the schedule, the number of threads, the order of the list, what scratch memory held and whether the device has its own memory; repeating the call changes nothing; only EOS named by the caller are used; exactly the documented modes are accepted; failures are reported in the return value.",
"For all arrays, offset lists, EOS, PTE solver results, modes, interleavings and device kinds.",
"Schedules, stale scratch contents and all arrays; a test sees one run.",
["singularity-eos/eos/get_sg_eos.cpp:get_sg_eos","singularity-eos/eos/get_sg_eos_functors.hpp:init_functor","singularity-eos/eos/get_sg_eos_rho_t.cpp","singularity-eos/eos/get_sg_eos_rho_p.cpp","singularity-eos/eos/get_sg_eos_rho_e.cpp","singularity-eos/eos/get_sg_eos_p_t.cpp"])

p("C153","Construction stops on unusable parameters and only on those",
 "An EOS object, plain or inside any stack of modifiers, is constructed if its parameters are usable (finite, positive where the EOS divides by them or takes a logarithm, a scale other than zero, a ramp with different slopes, ...), and otherwise the constructor stops the program with a message, so that an object in hand is ready for use; a modifier also checks everything beneath it. The converse half fails: zero specific heats and Gruneisen parameters are accepted, NaN passes the tests of some models, one model's constructors never run their check, some tests exist in debug builds only, and one modifier has no check.",
 "all parameter values including NaN and infinities, all models and all finite stacks of modifiers, debug and release builds, every rounding to nearest",
 "the parameter space is unbounded in every coordinate and includes special values; stacks are of any depth; aborting constructors are rarely exercised in tests",
 ["singularity-eos/eos/eos_ideal.hpp CheckParams","singularity-eos/eos/eos_gruneisen.hpp CheckParams","singularity-eos/eos/eos_mgusup.hpp CheckParams","singularity-eos/eos/modifiers/scaled_eos.hpp CheckParams","singularity-eos/eos/modifiers/ramps_eos.hpp CheckParams","singularity-eos/eos/modifiers/floored_energy.hpp FlooredEnergy","doc/sphinx/src/using-eos.rst CheckParams"])
p("C154","An EOS built from C, Fortran or Python has the parameters given under their documented names",
 "Whether an EOS is built with the C++ constructor, an init_sg_* function of the C interface (with or without modifier arrays), its Fortran counterpart or the Python class, and whether arguments are passed by position or (Fortran, Python) partly by keyword in any order, every documented parameter of the resulting object has the value given under its name, and parameters the interface does not take have their documented defaults; a call with too many, unknown, repeated or missing arguments is an error.",
 "all 13 EOS types of the C interface, all parameter values, all splits into positional and keyword arguments and all keyword orders",
 "argument values are unbounded and the number of keyword orders is factorial in the number of parameters; a swap of two parameters in one layer is invisible in tests that use symmetric or default values",
 ["singularity-eos/eos/singularity_eos.cpp init_sg_*","singularity-eos/eos/singularity_eos.f90 init_sg_*_f","python/module.cpp","doc/sphinx/src/models.rst"])
p("C155","A Variant behaves as the EOS it holds",
 "Every scalar call of a Variant is the held EOS's function of the same name with the same arguments in the same order, an omitted lambda being a null pointer. Every array call, written in any of the supported ways (with or without execution space, scratch memory and lambdas; raw pointers or other arrays; output equal to an input), resolves to exactly one overload and gives element i of the output the held EOS's scalar answer for elements i of the inputs and lambda i, for every i below num, changing nothing else; the same for the minimum energy and FillEos. A Variant holds the EOS last assigned: IsType, get and the functor evaluators agree on it.",
 "all held EOS, all functions, all call styles, all lengths (also zero or negative), arrays, lambdas and memory contents",
 "the number of combinations of function, overload, EOS type and array contents is unbounded; a swapped pair of arguments in one of over a hundred forwarding functions is only seen by a test of that very overload",
 ["singularity-eos/eos/eos_variant.hpp Variant","singularity-eos/eos/eos_base.hpp SG_EOS_VEC_2IN_1OUT, MinInternalEnergyFromDensity, FillEos","doc/sphinx/src/using-eos.rst"])
p("C156","Helmholtz queries agree with each other, whatever was asked before",
 "For the Helmholtz EOS: FillEos aborts exactly when there is no lambda, density is requested, or both temperature and energy are; otherwise it sets the requested outputs to the answers of the corresponding direct queries and changes nothing else. Every query by density and energy is the query by density and temperature at the temperature TemperatureFromDensityInternalEnergy returns. Answers do not depend on what was asked before through the same lambda. The reference state consists of direct answers, including the thermal expansion. DensityEnergyFromPressureTemperature returns the density with the requested pressure within its tolerance, and the energy there.",
 "all tables, options, compositions, states, requested outputs, contents of uninitialised memory, and all sequences of earlier calls",
 "the answer must be independent of an unbounded history of earlier calls that share the caller's cache; tests call each query on a fresh lambda or right after its own inverse",
 ["singularity-eos/eos/eos_helmholtz.hpp Helmholtz::FillEos, lTFromRhoSie_, GetFromDensityTemperature_, GetFromDensityInternalEnergy_, ValuesAtReferenceState, DensityEnergyFromPressureTemperature"])
p("C157","StellarCollapse answers do not depend on what was asked before through the same lambda",
 "For the StellarCollapse EOS: a call without a lambda aborts and otherwise every answer is for the electron fraction in it. After any sequence of calls through one lambda, a call made with a temperature (queries, composition, FillEos, density from pressure and temperature) or with an energy off the table answers exactly as before the sequence, and the temperature of an energy on the table changes by no more than the search tolerance; right after a call at temperature T, the temperature of the energy at T is T itself. The electron fraction in the lambda is the caller's and stays as it is.",
 "all tables, electron fractions, states, contents of the cache and of uninitialised memory, and all sequences of earlier calls",
 "the claim quantifies over unbounded histories of calls sharing one lambda and over all tables; tests make one call on a fresh lambda",
 ["singularity-eos/eos/eos_stellar_collapse.hpp StellarCollapse::getLogsFromRhoT_, getLogsFromRhoSie_, lTFromlRhoSie_, ValuesAtReferenceState, DensityEnergyFromPressureTemperature, FillEos", "singularity-eos/base/indexable_types.hpp SafeMustGet, SafeMustSet, SafeGet, SafeSet"])
p("C158","The lambda of a Spiner (density, temperature) EOS: answers do not depend on it, its entries report on the last call",
 "For SpinerEOSDependsRhoT with any lambda (null, array, or type-indexed with any entries): a call that has nothing to search for gives the same answer with every lambda, hence after every history; the others change by at most the search tolerance, and not at all in reproducibility mode. RootStatus and TableStatus report whether the last call's search succeeded and where its state lay. Right after a call at a density and temperature, the temperature of the energy there and the density of the pressure there are found exactly. The mass fraction entries receive the phase fractions at the given state and nothing else writes them. FillEos leaves the same entries as the corresponding single query.",
 "all tables, states, lambdas, contents of uninitialised memory, sequences of earlier calls and numbers of phases",
 "histories, lambda layouts and tables are unbounded; tests use one layout and a few calls",
 ["singularity-eos/eos/eos_spiner_rho_temp.hpp getLogsRhoT_, lTFromlRhoSie_, lTFromlRhoP_, lRhoFromPlT_, MassFractionsFromDensityTemperature, MassFractionsFromDensityInternalEnergy, FillEos", "singularity-eos/base/indexable_types.hpp SafeGet, SafeSet, RootStatus, TableStatus, MassFractions", "doc/sphinx/src/models.rst"])
p("C159","The lambda of a Spiner (density, energy) EOS: answers do not depend on it, its entries report on the last call",
 "For SpinerEOSDependsRhoSie with any lambda (null, array, or type-indexed with any entries): a call that has nothing to search for, that is every call except finding a density from a pressure on the table, gives the same answer with every lambda, hence after every history; finding a density changes by at most the search tolerance with the lambda, and not at all in reproducibility mode. RootStatus reports whether the last search succeeded, TableStatus where its state lay. After a call at a density, the density of the pressure there at any temperature is found exactly, calls that note no density in between included. The mass fraction entries, or the array given instead, receive the phase fractions at the given state and nothing else writes them.",
 "all tables, states, lambdas, contents of uninitialised memory, sequences of earlier calls and numbers of phases",
 "histories, lambda layouts and tables are unbounded; tests use one layout and a few calls",
 ["singularity-eos/eos/eos_spiner_rho_sie.hpp interpRhoT_, interpRhoSie_, lRhoFromPlT_, MassFractionsFromDensityTemperature, MassFractionsFromDensityInternalEnergy, FillEos, DensityEnergyFromPressureTemperature", "singularity-eos/base/indexable_types.hpp SafeGet, SafeSet, RootStatus, TableStatus, MassFractions"])
p("C160","A PTE solver touches only the entries of its own arrays, and fills what it should",
 "Whatever values come up and however the driver interleaves its calls after Init, each PTE solver reads and writes only existing entries of its scratch blocks and of the caller's per-material arrays, and only inside the memory it asked for. Each evaluation of the residual writes every equation exactly once; each Jacobian evaluation writes every entry of the matrix that is then solved; each trial step rewrites volume fraction, density, energy, pressure and internal energy density of every material.",
 "all five solvers, every number of materials, every excluded material, every outcome of the value-dependent branches and every sequence of driver calls",
 "the number of materials, the branches and the call sequences are unbounded; an index one past a block lands in the next block of the same allocation, where no sanitizer and no test looks",
 ["singularity-eos/closure/mixed_cell_models.hpp PTESolverBase, PTESolverRhoT, PTESolverPT, PTESolverFixedT, PTESolverFixedP, PTESolverRhoU, solve_Ax_b_wscr, sum_neumaier"])
p("C161","Floor, ramp, relativistic and unit modifiers in machine arithmetic",
 "In double precision: FlooredEnergy looks up exactly the energy given or the minimum energy, never one below the minimum, and keeps a monotone lookup monotone. BilinearRamp returns the larger of the two pressures; its ramp pressure is exactly 0 up to the reference density, never negative and never falling with density on either part, and the density found from it agrees with the density given up to six roundings. RelativisticEOS returns a bulk modulus that is never negative and never NaN, equal to B/(c^2+e+P/rho) up to four roundings. UnitSystem calls the wrapped equation of state with arguments converted up to one rounding, its results are converted up to three, and FillEos leaves the quantities it is given unchanged. NaN from the wrapped equation of state is not turned into a number.",
 "all double-precision arguments and parameters in the stated ranges, infinities and NaN included where no range is stated, all wrapped equations of state, every rule for ties in rounding",
 "rounding, NaN and infinities at every operand: tests compare a few values with a tolerance and never look at NaN or at neighbouring numbers",
 ["singularity-eos/eos/modifiers/floored_energy.hpp FlooredEnergy", "singularity-eos/eos/modifiers/ramps_eos.hpp BilinearRampEOS, get_ramp_pressure, get_ramp_density, get_ramp_dpdrho", "singularity-eos/eos/modifiers/relativistic_eos.hpp RelativisticEOS::BulkModulusFromDensityInternalEnergy, BulkModulusFromDensityTemperature", "singularity-eos/eos/modifiers/eos_unitsystem.hpp UnitSystem"])
p("C162","P-alpha ramp parameters and their searches",
 "pAlpha2BilinearRampParams returns the parameters of a ramp that is zero up to rho0/alpha0 and passes exactly through (rmid, Pe) and (r1, Pc), where rmid is the density at which the solid part has the elastic pressure and r1 the density at which the solid has the crush pressure, both found within the search tolerance; the bound it searches up to is high enough whenever the solid does not soften under compression, and for an ideal gas; when a point cannot be found the caller is told.",
 "all equations of state (isotherms), porosities, elastic and crush pressures, search bounds, contents of uninitialised variables and hardware results of a division by zero",
 "it composes an iterative search over an arbitrary isotherm with the algebra of the ramp; the one test uses an ideal gas whose linear isotherm the secant search hits at once",
 ["singularity-eos/eos/modifiers/ramps_eos.hpp pAlpha2BilinearRampParams", "singularity-eos/base/root-finding-1d/root_finding.hpp findRoot, bisect"])
p("C163","Carnahan-Starling gas in machine arithmetic","In double precision, with rounding, overflow, infinities and NaN: for every argument temperature, pressure and bulk modulus are at least SMALL and the energy at least q; below the packing limit all lookups are monotone in temperature or energy up to the infinities. The energy is exact up to 2 roundings, the temperature up to 4 of (e-q)/Cv, T to e to T up to 10 roundings of T + q/Cv; with F = 1 - b rho the compressibility Z, Z gm1, pressure and bulk modulus up to 33/F, 36/F, 44/F and 85/F roundings for F down to 2^-40. Without covolume the gas is the ideal gas to the last bit. The density search always ends; a density it returns is at least 0, never NaN, and the midpoint of two densities meeting the stopping rule; a NaN pressure, temperature or guess aborts. Fails: NaN arguments of the other lookups give ordinary numbers; the tolerances of the density search are absolute, so for a thin gas (b = gm1 = Cv = T = 1, guess up to 2^-30) the density returned is half the guess whatever the pressure.","all roundings to nearest (any tie rule), all machine numbers, all parameters","the loss near the packing limit and the search's last steps depend on the bits; a test uses a few states and a tolerance",["singularity-eos/eos/eos_carnahan_starling.hpp: CarnahanStarling::ZedFromDensity, PartialRhoZedFromDensity, DensityFromPressureTemperature, TemperatureFromDensityInternalEnergy, InternalEnergyFromDensityTemperature, PressureFromDensityTemperature, PressureFromDensityInternalEnergy, BulkModulusFromDensityTemperature, GruneisenParamFromDensityTemperature","singularity-eos/base/root-finding-1d/root_finding.hpp: regula_falsi"])
p("C164","The Fortran and C declarations of the interface agree",
"For every function of the C interface that the Fortran module declares, the two declarations have the same number of arguments, of interoperable types, by value or by reference alike, so that each C parameter receives what the Fortran user gave under its name, however many arguments there are; absent optional arguments arrive as null or as the documented default; and what is declared as not changed by a call is not changed.",
"all 20 functions, all values of all arguments, with and without optional arguments, any number and mixture of arguments for the calling convention, both ways a compiler may pass intent(in) arguments",
"the linker checks only names; an exchanged pair of doubles or a missing value attribute compiles, links and shows only for some values on some platforms",
["singularity-eos/eos/singularity_eos.f90: interface blocks, get_sg_eos_f, init_sg_*_f, finalize_sg_eos_f","singularity-eos/eos/singularity_eos.hpp: extern C declarations","singularity-eos/eos/singularity_eos.cpp: init_sg_eos, finalize_sg_eos"])
p("C165","SAP polynomial in machine arithmetic",
"In double precision, with rounding, overflow, infinities and NaN: the compression polynomial is taken exactly when the density is at least the reference density, down to the neighbouring doubles, and there the compression is exactly 0. Pressure, Gruneisen and bulk modulus lookups are finite and equal the polynomial of the exact compression within 2^-48 of the sum of the magnitudes of its terms, for coefficients, energies and densities of any size and sign short of overflow (magnitudes below 2^-500 count as 2^-500). A NaN or infinite density or energy is never masked: it shows in the result. Fails: a zero reference density is accepted, and then no lookup ever gives an ordinary number.",
"all roundings to nearest (any tie rule), all machine numbers, all parameters",
"a branch one rounding off shows only at neighbours of the reference density; the loss by cancellation depends on the coefficients; a test uses a few states and a tolerance",
["singularity-eos/eos/eos_sap_polynomial.hpp: SAP_Polynomial::MuFromDensity, PressureFromDensityInternalEnergy, GruneisenParamFromDensityInternalEnergy, BulkModulusFromDensityInternalEnergy, CheckParams"])
p("C166","Ideal electron gas in machine arithmetic",
"In double precision, with rounding, overflow, infinities and NaN: every lookup of IdealElectrons is at least 0 and never NaN, for all arguments and ionization states. At each ionization state it is bit for bit the ideal gas with that state's heat capacity, except that NaN becomes 0; negative states count as 0. In range every lookup is exact up to at most 6 roundings, temperature to energy and back up to 4, density to pressure and back up to 8, gamma - 1 is 2/3 up to 3 units of 2^-53 and the heat capacity per electron k/(gm1 A m_p) up to 5 roundings. Fails: for neutral atoms (state 0) a positive energy has infinite temperature and its two pressures differ (positive and 0); NaN arguments or states are masked as 0.",
"all roundings to nearest (any tie rule), all machine numbers, all ionization states",
"NaN, infinities and state 0 are points a test misses; the rounding bounds range over all doubles",
["singularity-eos/eos/eos_electrons.hpp: IdealElectrons, _Cv, TemperatureFromDensityInternalEnergy, InternalEnergyFromDensityTemperature, PressureFromDensityTemperature, PressureFromDensityInternalEnergy, BulkModulusFromDensityTemperature, BulkModulusFromDensityInternalEnergy, DensityEnergyFromPressureTemperature"])
p("C167","JWL in machine arithmetic",
"In double precision, with rounding, overflow, infinities and NaN, and whatever the library's exponential returns: with e_r and P_r the computed reference energy and pressure at the density, temperature to energy and back gives T up to 2^-48 of T + 2|e_r|/Cv; the pressure by temperature is P_r + w rho Cv T up to 2^-48 of |P_r| + w rho (2|e_r| + Cv T), and the pressure the density search solves for is the same sum up to 2^-48 of its terms; each reference function calls the exponential at -R rho0/rho up to 2^-48 and combines the results up to 2^-48 of the sum of its terms' sizes. A NaN or infinite temperature, energy or (in the pressures) density is never masked. Fails: a thermal energy below 2^-54 of e_r is lost, so that the temperature comes back as 0.",
"all roundings to nearest (any tie rule), all machine numbers, all exponentials",
"the loss depends on the ratio of thermal to reference energy, the masking on special values; a test uses a few states and a tolerance",
["singularity-eos/eos/eos_jwl.hpp: JWL::ReferencePressure, ReferenceEnergy, InternalEnergyFromDensityTemperature, PressureFromDensityInternalEnergy, TemperatureFromDensityInternalEnergy, PressureFromDensityTemperature, DensityEnergyFromPressureTemperature"])

with open('/verif/properties.jsonl','w') as f:
    for x in P: f.write(json.dumps(x)+"\n")
print(len(P))
