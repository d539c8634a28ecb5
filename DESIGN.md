# Formal model of singularity-eos in Lean 4 — design

## 1. Trusted base

* **Lean 4.33.0's kernel**, with Mathlib as a library. No `native_decide`, no `bv_decide`, no axioms of our own, no
  unfinished proofs; every theorem depends on at most `propext`, `Classical.choice` and `Quot.sound` (Lean's own). `python3 tools/gen.py`
  writes `/tmp/axioms.lean`, which prints the axioms of each property theorem.
* **The reading of the C++.** Each definition under `lean/Verif/Model/` cites the file and lines it models and says where it
  simplifies. The code is never compiled or executed here, so this reading is part of the trusted base. The model files
  contain no theorem; the property files contain no definition of program behaviour.
* **Arithmetic.** `Real` (double) is modelled by an arbitrary linearly ordered field `K` where only `+ - * / < <= min max`
  occur (so the theorems hold over ℝ and witnesses compute over ℚ), and by Mathlib's `ℝ` where `exp`, `log`, `pow`, `sqrt`
  occur. Rounding, overflow, NaN and infinities are not modelled, with these exceptions: the NQT logarithms with aliasing
  are bit-exact integer functions on the 64-bit patterns; `safe_arg_exp` has an explicit infinity; log-space kinetic rates
  have an explicit minus infinity; `sum_neumaier` (C133) and `regula_falsi` (C134) and `robust_utils` (C135, with overflow and NaN), `IdealGas` (C137) and the scale and shift modifiers (C138) are also modelled with every operation rounded
  (`Spec/Rounding`: binary format of `p` bits, to nearest, any ties; no overflow otherwise); Newton's division by a zero derivative is an arbitrary function (any hardware result).
  `robust::SMALL` and `EPS` are explicit positive parameters, not erased. Some properties are stated with `SMALL = 0`
  (exact division) and say so (`Num.exact`).
* **Undefined behaviour** (reading uninitialised data, dangling or null pointers, out-of-bounds access, double free) is a
  distinct observable outcome in the models of the properties that are about it (C24, C25, C54–C56, C63, C65, C72).
* **Libraries outside /repo**, modelled from their documented behaviour and trusted to have it:
  Spiner `PiecewiseGrid1D` (points in order, a meeting point stored twice; `index` selects a segment of positive length that
  holds the argument, outside the first or last: `Mesh.Ok`) in `Model/Table/Mesh.lean`;
  Spiner `RegularGrid1D`/`DataBox` (clamped index, multilinear interpolation, extrapolation from the end cells, `min`, `max`,
  allocation status) in `Model/Table/DataBox.lean`, `Bounds.lean`, `Ownership.lean`; HDF5 files as a map from names to
  contents; EOSPAC as exact functions of the point asked; Kokkos `UniqueToken` as "no two holders of one token at a time";
  `memcpy`, `frexp`, `ldexp`; the linear solver of the PTE step as an arbitrary function of the system (theorems about the
  Newton step assume the system solved); trivially copyable objects are their bytes.

## 2. Layout

* `lean/Verif/Model/**`   the code, function by function, with citations.
* `lean/Verif/Spec/**`    small independent specifications (sorted, thermodynamic laws, partition of memory, …).
* `lean/Verif/Lemmas/**`  helper lemmas.
* `lean/Verif/Props/**`   the property theorems, named `Cnn_…`, with `example`s that meet their hypotheses. Where the code
  violates the expectation in the property, the theorem `Cnn_…_violated` gives a concrete witness, and `_partial` theorems
  (or theorems whose hypotheses exclude the witness) give what does hold.
* `tools/props.py` → `properties.jsonl`; `tools/gen.py` → `lean/Verif.lean`, `MANIFEST.json`; `tools/gen_design.py` → this file.
* `seeded/LOG.jsonl`      mutation tests: edits to the model that mimic realistic bugs and the theorems that failed.

## 3. What is modelled

| part of /repo | model | notes |
|---|---|---|
| base/robust_utils, math_utils | `Model/Robust`, `IeeeRobust` | all; `ratio`, `sgn`, `make_positive`, `make_bounded` also on IEEE numbers (rounding, overflow, infinities, NaN) |
| base/root-finding-1d | `Model/RootFind`, `RootCounts`, `FloatRootFind`, `IeeeRootFind` | `regula_falsi`, `newton_raphson`, `set_bracket`, `check_bracket`, `findRoot`, `secant`, `bisect`, iteration statistics (`RootCounts`); `regula_falsi` also with rounded arithmetic, and all finders on IEEE numbers (rounding, overflow, infinities, NaN) |
| base/fast-math/logs | `Model/Math/FastLog`, `Model/Math/LogBuild` | NQT first and second order, portable (over ℝ, and with rounding) and aliased (bit patterns); selection by build options |
| base/hermite | `Model/Table/Hermite` | all |
| base/spiner_table_utils | `Model/Table/Bounds`, `Ownership` | grid bounds, anchors, multi-grid construction; memory ownership |
| base/indexable_types, variadic_utils, eos_type_lists, eos_variant | `Model/TypeLists` | type lists, index lookup of lambda types, dispatch |
| eos_variant modifier interface, eos_builder, EosType names | `Model/Variant` | Modify, UnmodifyOnce, GetUnmodifiedObject, is_modifiable, names |
| base/serialization_utils, eos_base serialisation | `Model/Serialize` | byte level |
| closure/kinetic_phasetransition_* | `Model/Kinetic`, `IeeeKinetic` | all four routines, also on IEEE numbers with any library `log` and `exp` |
| closure/mixed_cell_models | `Model/MixUtils`, `PTEInit`, `PTECheck`, `PTESolvers`, `PTEDerivs`, `PTEDriver`, `PTEFull`, `PTEAccess`, `Scratch`, `FloatSum`, `IeeePTE` | residuals, tests, line search and driver also on IEEE numbers; five solvers as complete objects run by the driver (constructor state to Finalize): Init, Fixup, Residual, CheckPTE, Jacobian, ScaleDx, TestUpdate, scratch layout, which array cells each function touches, driver loop, line search; `sum_neumaier` also with rounded arithmetic (no overflow) |
| eos/eos_base, EosIface | `Model/EosIface`, `EosBase` | scalar and vector interface, default inversions, min energy, PT derivatives |
| analytic EOS: ideal, stiff, Noble–Abel, Carnahan–Starling, Gruneisen, JWL, Davis ×2, MGUsup, PowerMG, Vinet, SAP polynomial, ideal electrons, the plug-in example Dust | `Model/Eos/*`, `IeeeIdeal`, `IeeeStiff`, `IeeeCarnahan`, `IeeeSap`, `IeeeElectrons`, `IeeeJwl` | all queries; the ideal, stiff, Noble–Abel and Carnahan–Starling gases and the ideal electrons (without their entropies) and the SAP polynomial (without the lookups that return 0), JWL (without bulk modulus and density search), also on IEEE numbers |
| example programs `eos_grid`, `map_pt_space`, `pte_2mat`, `get_sound_speed_press` (and the argument checks of `get_sesame_state`, `get_spiner_bounds`) | `Model/Examples` | loops, starting state, argument checks; EOS arbitrary, printing and timing omitted |
| `GenericIndexer` (`generic_indexer.hpp`) | `Model/GenericIndexer` | reads and writes through nested indexers, by reference, pointer and own copy |
| Helmholtz | `Model/Eos/Helmholtz` | radiation, ions, Coulomb, electrons, sums, temperature inversion, lambda cache; the public queries, FillEos, reference state and inversion from pressure with the lambda they read and write (`Model/Eos/HelmholtzQuery`); the reader of the table file (`Model/Eos/HelmholtzFile`) on white-space separated words |
| SpinerEOSDependsRhoT, RhoSie, StellarCollapse | `Model/Table/*` | queries, inversions, off-table rules, transforms, save/load; StellarCollapse, RhoT and RhoSie also with the lambda (`StellarCollapseCalls`, `SpinerRhoTCalls`, `SpinerRhoSieCalls`); RhoT also from the file's numbers on piecewise grids (`SpinerRhoTLoad`: derived tables, reference state, mass fractions; `Tools/Sp5Eos`: from the sp5 file); RhoSie likewise (`SpinerRhoSieLoad`), its stored columns and sesame2spiner's writers |
| `utils/scripts/make_tabulated_ideal_sc.py` | `Model/Table/IdealScript.lean` | the file it writes, over the reals (not: command line, `cs2`, `gamma`) |
| sesame2spiner command line, deck parser, choice and names of materials, grid parameters | `Model/Tools/Sesame2Spiner` | strings as lists of characters, `stod` a parameter |
| sesame2spiner tables and the sp5 file; the constructors of the Spiner EOS | `Model/Tools/Sp5File` | the flat arrays, the nine boxes, cold curves, mass fractions; groups, soft links, attributes and datasets written and read; EOSPAC is any function of density and temperature; texts and compression left out |
| modifiers | `Model/Modifiers`, `IeeeModifiers`, `IeeeMoreModifiers` | shifted, scaled, ramp, unit system, relativistic, Z-split, floored; FillEos; scratch sizes; scalar lookups of all but Z-split also on IEEE numbers (of `FillEos` only that of the unit system) |
| construction | `Model/CheckParams` | constructors and CheckParams of the analytic EOS and of the modifiers, on IEEE numbers, debug and release builds |
| building from C, Fortran, Python | `Model/Construct` | parameter lists and calls of the C++ constructors, `init_sg_*`, `init_sg_*_f`, `py::init`; keyword binding |
| Fortran calling C | `Model/FortranAbi` | the interface blocks of `singularity_eos.f90`, the prototypes of `singularity_eos.hpp`, the actual argument lists of the module, System V argument passing (representation only), the handle under both ways of passing `intent(in)` |
| Variant | `Model/VariantCall` | all forwarding functions of `Variant` (scalar and array overloads), overload resolution by argument kind, the array overloads and loops of `EosBase`, `get`, `IsType`, `EvaluateHost/Device`; not `Transform` arguments, not C++ conversions |
| eos/get_sg_eos*, singularity_eos.cpp | `Model/CInterface`, `Model/CInterfaceCall` | four input modes, token pool, scratch rows, init flags; the whole call with its device mirrors and selective copies back (Kokkos views and memory spaces are assumed to behave as documented) |
| base/error_utils, debug checks of the C interface | `Model/DebugChecks` | classes of doubles; printing left out |
| eos/eos_eospac, eospac-wrapper | `Model/Eos/Eospac` | all scalar queries, FillEos, reference state, table selection, all array calls with scratch and Transform, `eosSafeInterpolate`, interleaving of library calls; the library is an abstract table with mutable conversion factors; extrapolation codes are not modelled |
| eos/eos_eospac serialisation and Finalize | `Model/EospacSerialize` | byte level; the library by its packing contract (`Spec/EospacSerialize`) |
| eos_base StrCat, messages of disabled queries | `Model/Messages` | all |
| eospac-wrapper: loading, options, metadata, name, release; the constructor's calls | `Model/Tools/EospacLoad` | the library is an arbitrary function of the history of calls; messages are left out |

Not modelled: in the Python and Fortran bindings (`Model/Bindings.lean`, `Model/BindingsArrays.lean`) registration of names and overload resolution by pybind11, byte strides that are no multiple of a double, and copy-in/copy-out by a Fortran compiler; the HDF5 library itself (taken as a map from paths to objects), Kokkos memory spaces, printing, performance.

## 4. Proof methods

* Loops: `forN`/fuelled recursion with invariants proved by induction on the trip count; no bound on sizes.
* Schedules (C24): a small-step machine for all interleavings; invariant over reachable states, and a commutation
  argument that every interleaving gives each cell what it would get alone.
* Root finding (C08–C10, C61): loop invariants for arbitrary functions; convergence from chord slopes — if all chords through the
  root have slopes in `[m, M]`, each pass either shrinks the bracket by `1 - m/2M` or halves a stale end value, which can happen
  at most `log2(M/m) + 2` times in a row. All table and density inversions (C39–C44, C52, C85–C105) are instances.
* Thermodynamics: `HasDerivAt` over ℝ for every named derivative (bulk modulus along the isentrope, Gruneisen, heat capacity),
  the first law `de/drho|T = (P - T dP/dT)/rho²`, and entropy relations. The laws are stated once in `Spec/ThermoLaws`, `Spec/Jets`.
* Memory: byte-level round trips, interval disjointness, and a history machine with an invariant over all operation lists.
* Violations: explicit rational (or ℝ) witnesses evaluated by the kernel.

## 5. Per property

Status, theorems, and the limits found. `violated` means the natural reading of the property is false of the code; the
witness is the theorem.


### C01 SortGibbs returns a descending ordering permutation — proved

After SortGibbs(n, gibbs, order), order[0..n) is a permutation of 0..n-1 and gibbs[order[0]] >= gibbs[order[1]] >= ... >= gibbs[order[n-1]]; the contents of order before the call do not matter.

Over: every phase count n>=0 and every array of real Gibbs energies, including ties.

In `Verif.Props.Kinetic`.

* `C01_sortGibbs_orders` — whatever the array held before, `SortGibbs` returns an ordering of the phases from highest to lowest Gibbs energy.
* `C01_sortGibbs_frame` — entries beyond the phase count are not written.

### C02 Kinetic mass-fraction update conserves mass and never produces negative fractions — proved

SmallStepMFUpdate writes new mass fractions that are all non-negative, and their sum equals the sum of the input mass fractions except that a phase whose available mass is below KPT_MIN_MASS_FRACTION is emptied; the mass lost is at most (num_phases-1)*1e-10 and is exactly the sum of those sub-threshold masses. Total mass is conserved exactly if and only if no donor reached in order has an available mass strictly between 0 and 1e-10.

Over: every number of phases, every ordering permutation, every vector of non-negative mass fractions, every time step and every table of log rates.

In `Verif.Props.Kinetic`, `Verif.Props.KineticAmounts`.

* `C02_local_balance` — local balance: for each phase, what it ends with is what it had available minus what it gave, unless the available mass is below the threshold: then it gives nothing and is emptied. Every recorded transfer is non-negative.
* `C02_nonneg` — no output mass fraction is negative.
* `C02_total_mass` — total mass: the sum of the new mass fractions is the sum of the old ones minus exactly the sub-threshold available masses of the donor phases.
* `C02_loss_bounded` — the mass lost is between zero and `(num_phases - 1) * 1e-10`.
* `C02_conserved_exactly` — total mass is conserved exactly when no donor phase has a positive available mass below the threshold.
* `C02_exact_conservation_violated` — exact conservation of the total mass is violated, even when every phase is either empty or well above the threshold: a phase that receives less than `1e-10` is emptied without passing it on.
* `C02_conserved_iff` — total mass is conserved exactly if and only if no donor phase reached has an available mass strictly between zero and the threshold.

Limit: C02_exact_conservation_violated exhibits the loss the statement bounds.

### C03 The packed phase-pair table is addressed consistently — proved

The rate table filled by LogRatesCGModel, the mass-transfer table filled by SmallStepMFUpdate and the documented index jk=(j+1)(n-1)-(j-1)j/2-k agree: each ordered pair j<k occupies exactly one slot, slots are exactly 0..n(n-1)/2-1, nothing is written outside them, and the from/to label 10*from+to identifies both phases for up to ten phases (and for no more: with eleven two transitions share a label).

Over: all phase counts n and all pairs j<k<n.

In `Verif.Props.Kinetic`, `Verif.Props.KineticAmounts`.

* `C03_closed_form_is_position` — the documented closed form `(j+1)(n-1) - (j-1)j/2 - k`, with C integer division, is the position of the pair `(j,k)` in the row-by-row listing.
* `C03_slots_bijective` — the closed form is a bijection from the pairs `j < k < n` onto `0, …, n(n-1)/2 - 1`.
* `C03_logRates_layout` — `LogRatesCGModel` stores, for every pair `j < k`, the rate and the label of that pair at the documented position, and writes nothing outside the `n(n-1)/2` positions.
* `C03_fromto_unambiguous` — with at most ten phases the label `10*from + to` identifies both phases.
* `C03_fromto_ambiguous_beyond_ten_violated` — with eleven phases two different transitions carry the same label (`1→0` and `0→10`).
* `C03_smallStep_frame` — /C03: nothing is written outside the `n(n-1)/2` slots of the transfer table, nor beyond the phases.

Limit: C03_fromto_ambiguous_beyond_ten_violated shows the ten-phase limit in the statement is sharp.

### C04 The maximum kinetic time step keeps every single transfer within the phase's mass — proved

With log dt <= LogMaxTimeStep, for every donor phase above the mass threshold the amount requested for each receiving phase is at most the donor's mass fraction; LogMaxTimeStep never exceeds 1 and is the largest such value.

Over: all phase counts, rate tables and mass fractions.

In `Verif.Props.Kinetic`, `Verif.Props.KineticAmounts`.

* `C04_logMaxTimeStep_is_greatest` — `LogMaxTimeStep` is the largest value not above `1` and not above `-log R` for any pair whose donor is above the mass threshold.
* `C04_transfer_within_mass` — with a time step within the limit, the amount `exp(log dt + log R + log m)` requested from a donor above the threshold for any single receiver never exceeds the donor's mass.
* `C04_transfer_amount` — amounts: receivers are served from the lowest Gibbs energy upwards. Each gets `exp(log dt + log R + log m)`, `m` being the donor's own mass fraction before the step, unless less than the threshold would remain of what the donor still has (own mass and receipts minus earlier gifts): then it gets all of it, and later receivers nothing.
* `C04_first_receiver` — within the time step limit, a donor above the threshold asked by the first receiver only (the phase of lowest Gibbs energy) gives `exp(log dt + log R + log m)` or, if less than the threshold would remain, everything.

### C05 Robust ratio is total, sign-preserving and never exceeds the true quotient in magnitude — proved

robust::ratio(a,b) never divides by zero for any b (including 0), has the sign of a*b (b=0 counts as positive), satisfies |ratio(a,b)|<=|a/b| for b!=0, and its relative deviation from a/b is exactly SMALL/(|b|+SMALL).

Over: all real a, b.

In `Verif.Props.Robust`.

* `C05_ratio_never_divides_by_zero` — `ratio` never divides by zero, whatever the denominator.
* `C05_ratio_zero_denominator` — with a zero denominator the result is the finite `a / SMALL`.
* `C05_ratio_sign` — the sign is that of `a/b`, a zero denominator counting as positive.
* `C05_ratio_abs_le` — the magnitude never exceeds that of the true quotient.
* `C05_ratio_relative_error` — the deviation from the true quotient is exactly the factor `SMALL / (|b| + SMALL)`.
* `C05_ratio_double_accurate` — in double precision (`SMALL = 10·2^-1022`) the deviation is below half a unit in the last place as soon as the denominator is at least `10·2^-969 ≈ 2·10^-291`.
* `C05_ratio_double_zero_denominator` — over a zero denominator the value stays in the range of doubles (below `2^1024`) exactly for numerators smaller than 40 in magnitude: a zero denominator gives an infinity for larger ones.

### C06 Robust clamps stay in their interval — proved

make_positive(v) is >= EPS and equals v when v>=EPS; make_bounded(v,lo,hi) is the projection onto [lo+EPS, hi(1-EPS)] whenever that interval is non-empty, is monotone in v, and is strictly inside (lo,hi) when hi>0 (for negative hi it can exceed hi); safe_arg_exp is 0 below the exponent range, infinite above, the exponential (a normal double) in between, and monotone.

Over: all real arguments and bounds.

In `Verif.Props.Robust`.

* `C06_makePositive` — `make_positive` is at least `EPS`, fixes anything at least `EPS`, and is monotone.
* `C06_makeBounded_projection` — for a non-empty shrunk interval `make_bounded` is the projection onto `[vmin + EPS, vmax (1 - EPS)]`: it lands there and fixes every point of it.
* `C06_makeBounded_monotone` — `make_bounded` is monotone in its argument.
* `C06_makeBounded_strictly_inside` — for a positive upper bound the result is strictly inside `(vmin, vmax)`. For negative upper bounds this is false (next theorem).
* `C06_makeBounded_exceeds_negative_bound_violated` — violated for negative upper bounds: `vmax*(1-EPS)` is then above `vmax`, so the clamped value can leave `[vmin, vmax]`, for every `EPS > 0` small enough.
* `C06_safeArgExp` — `safe_arg_exp` is the exponential inside the representable exponent range, zero below and infinity above, hence never negative and monotone over all arguments.
* `C06_safeArgExp_range` — at the double limits the value returned in the finite branch is a normal double: between `2^-1022` and `2^1024`.

Limit: C06_makeBounded_exceeds_negative_bound_violated shows why hi>0 is needed.

### C07 Integer powers by repeated squaring equal the mathematical power — proved

math_utils::pow<P>(x) equals x^P for every integer P (1/x^|P| for negative P) and the recursion terminates.

Over: every integer exponent and every real x.

In `Verif.Props.Robust`.

* `C07_pow_eq_zpow` — `pow<P>(x) = x^P` for every integer exponent.

### C08 regula_falsi keeps a bracket and returns a point of it — proved

If the end points of [a,b], or one of them and the guess, bracket the target, and xtol, ytol are non-negative, then whatever the function the returned root lies in [a,b], at the middle of a final interval inside [a,b] over which f-target still changes sign, so for continuous f the final interval contains a true root; the loop makes at most 1000 iterations; FAIL is returned exactly when the iteration limit is reached or no bracket is found. (With a negative xtol the loop can run for ever.)

Over: every function, target, interval, guess and tolerance.

In `Verif.Props.RootFind`, `Verif.Props.SetBracket`.

* `C08_regulaFalsi_keeps_bracket` — for any function whatever, if the target is bracketed by the ends of `[a,b]` (or by the guess and an end), `regula_falsi` stops within 1000 passes, returns the midpoint of an interval inside `[a,b]` over which `f - target` still changes sign, and reports FAIL exactly when all 1000 iterations were used.
* `C08_regulaFalsi_always_sign_change` — every terminating run, bracketed by the caller or not, ends in a sign-changing interval (the loop never loses the root it started from).
* `C08_regulaFalsi_near_true_root` — for continuous functions: the target value is attained inside the final interval, so within half its width of the returned root — within `xtol` whenever the run stopped because of `xtol`.
* `C08_negative_xtol_never_terminates_violated` — termination needs `xtol ≥ 0`; with a negative `xtol` the loop can run for ever.
* `C08_initial_bracket` — the bracket `regula_falsi` starts from. If the residual changes sign between the lower end and the guess, that is the bracket; otherwise, if it does between the guess and the upper end, that; otherwise it is the guess and the first of the 32 points `a + (i + 1/2)(b - a)`, `i = 0, …, 31`, where the residual differs in sign from that at the guess (only the first of them lies in the interval), and the call fails when there is none.
* `C08_samples_outside` — the second and later of those points are beyond the upper end.

Limit: C08_negative_xtol_never_terminates_violated shows why xtol>=0 is needed.

### C09 Where the root reported by regula_falsi can be — proved

The root reported by regula_falsi(f,target,guess,a,b,...) is in the caller's interval [a,b] if that interval, or the part on either side of the guess, brackets the target, whether or not the search converged. Without a bracket the root is only within [a, max(b, a+31.5(b-a))], and SUCCESS with a root outside [a,b] does happen.

Over: every function, target and interval.

In `Verif.Props.RootFind`.

* `C09_success_outside_interval_violated` — violated: on `[0,1]` the decreasing line `5/4 - x` has no root, yet `regula_falsi` reports SUCCESS with root `5/4` outside the interval, because `set_bracket` keeps the full interval width as its sampling step at every level.
* `C09_bracketed_root_in_interval` — if the caller's interval, or the part of it on either side of the guess, brackets the target, the reported root lies in the caller's interval, whether or not the search converged.
* `C09_root_range` — whatever the function and the caller's interval, a returned root lies in `[a, max b (a + 31.5 (b-a))]`; containment in `[a,b]` needs a bracketing interval (`C09_bracketed_root_in_interval`) and is false without (theorem above).

Limit: C09_success_outside_interval_violated is the concrete SUCCESS outside the interval mentioned in the statement.

### C10 What SUCCESS from newton_raphson means — proved

newton_raphson makes at most 100 iterations; with fail_on_bound_root a SUCCESS result lies in [a,b] and satisfies |f(x)-target|<|ytol*target|; without it SUCCESS means either that, or that the iteration stopped at or beyond an end of the interval (possibly outside it). A target of zero is never reported as found.

Over: every function/derivative pair, target, interval and guess.

In `Verif.Props.RootFind`.

* `C10_newton_success` — with `fail_on_bound_root` (the default), SUCCESS means the residual is below the relative tolerance and the root is in `[a,b]`, whatever the function, its claimed derivative, and even the value hardware returns for a division by zero.
* `C10_zero_target_always_fails_violated` — violated: a target of zero can never be met — the test `|y - 0| < |ytol * 0|` is `|y| < 0` — so the solver reports FAIL even when the guess is an exact root.
* `C10_unclamped_success_violated` — violated: without `fail_on_bound_root` a SUCCESS root may lie outside `[a,b]` (and be no root).
* `C10_newton_no_fail_flag` — without `fail_on_bound_root`, SUCCESS means converged inside `[a,b]`, or stopped because two successive iterates were at or beyond the same end (and then the root may be outside, theorem above).

Limit: The two _violated theorems are the limits named in the statement.

### C11 Bisection / findRoot shrink a sign-changing interval and return a point within bounds — proved

findRoot's SUCCESS result lies in [xmin,xmax]; the bisection fallback keeps f(a)-y and f(b)-y of opposite sign at every step, halves the interval each step, and performs a bounded number of steps.

Over: every continuous or discontinuous function, target, bounds and guess.

In `Verif.Props.RootFind`, `Verif.Props.RootFindBracket`.

* `C11_bisect_success` — SUCCESS from `bisect` means `f - target` changes sign over an interval of width below `xtol` centred on the root.
* `C11_bisect_halves` — each bisection halves the interval and keeps the sign change, for every function and every number of steps.
* `C11_findRoot_success` — a SUCCESS from `findRoot` is a point of `[xmin, xmax]` whose relative residual is within `ytol`, or that is the centre of an interval narrower than `xtol` over which `f - target` changes sign.
* `C11_findRoot_inside` — what SUCCESS from `findRoot` means, with the location: the root is in the interval and either has a residual within the relative tolerance or is the middle of a sub-interval of the searched interval, narrower than `xtol`, across which `f - target` changes sign.
* `C11_findRoot_bracketed` — `findRoot` never misses a bracketed root. If `f - target` does not have the same sign at both ends of an interval of positive numbers at least `xtol` away from zero, the search succeeds for every function, guess and division hardware, and the root it reports is in the interval and either has a residual within the relative tolerance or is the middle of a sub-interval narrower than `xtol` across which `f - target` changes sign.

### C12 sum_neumaier equals the sum of all entries except the skipped one — proved

sum_neumaier(arr,n,iskip) returns the exact sum over all indices other than iskip in exact arithmetic (the compensation never biases the sum).

Over: every length, array and skip index.

In `Verif.Props.MixUtils`.

* `C12_sum_neumaier` — in exact arithmetic the compensated sum is the sum of `op(data[i+offset])` over all `i < n` other than the skipped index; a negative `iskip` skips nothing.

### C13 The density-temperature PTE trial step keeps the total volume fraction — partial

For PTESolverRhoT, which promises that volume fractions exactly sum, each TestUpdate leaves the volume fractions summing to the vfrac_total given to the constructor.

Over: every number of materials, every step and scale, every vfrac_total.

In `Verif.Props.PTESolvers`.

* `C13_rhoT_sums_to_one_partial` — what is missing: the total is always 1, not the `vfrac_total` given to the constructor, see `C13_violated`: after every RhoT trial step, whatever the step, the volume fractions sum to exactly 1.
* `C13_violated` — is violated for a mixture that occupies only part of the cell: with `vfrac_total = 1/2` and fractions that do sum to 1/2, the trial step with `dx = 0` already changes the sum to 1.
* `C13_rhoT_masses` — a RhoT trial step keeps each material's mass: `rho*vfrac = rhobar` up to the `robust::ratio` factor.
* `C13_fixed_and_rhoU` — for FixedT, FixedP and RhoU, whose step `dx` satisfies the volume row of the Newton system (`∑ dx = vfrac_total - ∑ vfrac`), a trial step with line-search factor `t` leaves exactly `1 - t` of the volume defect, so a full step gives volume fractions that sum to `vfrac_total`.
* `C13_rhoU_energy` — RhoU also treats the total energy this way, as its `ExactlySum` claims.

### C14 EnforceMassVolumesSum restores the total volume without changing each material's mass — proved

After EnforceMassVolumesSum on a state, volume fractions sum to vfrac_total and every material's mass rho_i*vfrac_i is unchanged (up to the SMALL regularisation).

Over: all numbers of materials and all positive states.

In `Verif.Props.MixUtils`.

* `C14_enforceMassVolumesSum` — after `EnforceMassVolumesSum` the volume fractions sum to `tot_vol`; only one entry, one with the largest volume fraction, is altered; and each material keeps its mass `rho*vfrac`, that entry up to the factor `|v|/(|v|+SMALL)` of `robust::ratio`.
* `C14_mass_error` — the relative mass error of the adjusted material is exactly `SMALL/(|v|+SMALL)`, hence zero mass error is approached as `SMALL → 0`, and the total mass changes by at most `SMALL` times that material's old mass over its new volume fraction.

### C15 EnforceEnergiesSum restores the total energy — proved

After EnforceEnergiesSum the mass-weighted internal energies sum to the total.

Over: all numbers of materials and states with non-zero energy.

In `Verif.Props.MixUtils`.

* `C15_enforceEnergiesSum` — after `EnforceEnergiesSum` only the material with the largest absolute energy contribution is altered, and the energies sum to `tot_rho*tot_sie` up to that entry's `robust::ratio` factor.

### C16 PTE scratch blocks are disjoint and fit the advertised size — proved

For each PTE solver, the arrays carved from the caller's scratch are pairwise disjoint, contiguous, and together exactly fill the number of doubles reported by PTESolver*RequiredScratch(nmat).

Over: every solver and every nmat>=1.

In `Verif.Props.MixUtils`.

* `C16_scratch_layout` — for every solver and every number of materials, the blocks handed out from a scratch pointer at `st` come one after the other without overlap, have the requested sizes, start at `st`, and end exactly `RequiredScratch(nmat)` reals after it.
* `C16_cache_slots` — lambda slots of different materials in a cache never coincide, and all lie in `[0, MAX_NUM_LAMBDAS*nmat)`, the size `CacheAccessor::Size(nmat)` reports.

### C17 The PTE driver terminates, and accepted or rejected trial steps leave a consistent state — proved

PTESolver performs at most the configured number of iterations; a rejected ideal-gas guess leaves the solver state exactly as before; the iterates' error is non-increasing under line search acceptance.

Over: every solver, every EOS behaviour (arbitrary residual function), every iteration limit.

In `Verif.Props.PTEDriver`, `Verif.Props.PTEInit`, `Verif.Props.PTEMeritViol`, `Verif.Props.PTETrial`.

* `C17_record_faithful` — Recording the calls does not change what the driver computes, for any solver.
* `C17_bounded` — the driver always stops, after at most `nmat * pte_max_iter_per_mat` Newton iterations (linear solves) and at most `2 + line_search_max_iter` trial updates per iteration, and every trial update uses a step fraction in `(0,1]` — for every solver, initial state and error history.
* `C17_line_search` — what a line search leaves. The state is the one produced by a trial update with some step fraction `t ∈ (0,1]` and the error is the one that update returned. Either the error meets the sufficient-decrease condition for `t` — hence does not exceed the old error — or all `line_search_max_iter` backtracking trials were used up and `t` is at most `(3/4) fac^(max-1)`.
* `C17_ideal_guess` — `TryIdealPTE` either leaves the caller's arrays, the residual, the energies and the average densities exactly as they were (indices outside the materials included), although it used part of the scratch for its own copies, or it leaves a state whose residual norm is not larger and in which every temperature is the same, every density is `rhobar/vfrac` and energies and pressures are those of the material models at that density and temperature; the volume fractions are then the old ones rescaled by the ideal-gas law, no temperature is negative and no density is below the model's density of minimal pressure. The area it overwrites must end before the residual: `4 nmat + neq <= neq² + 3 neq`, true for RhoU (`neq = 2 nmat`, see `C17_ideal_rhoU_room`).
* `C17_ideal_rhoU_room` — For RhoU, the only solver that calls it, the working area of `TryIdealPTE` fits before the residual for every number of materials.
* `C17_tguess_pressure` — `GetTguess` for an EOS that takes pressure as an input: energy and specific heat are taken at the EOS' state at temperature `T` and a pressure inside the EOS' range, the caller's pressure when that is usable and inside, the nearer end of the range when it is outside, the middle of the range when it is unusable.
* `C17_ideal_equilibrium` — the pressure and temperature `GetIdealPTE` returns are the equilibrium of ideal gases with the heat capacities `sie/T` and the products `P v/T` of the current states: at the common temperature the gases' total energy density is `uscale` (the scaled total is 1), and the volumes `v_m (P_m/T_m) / (P/T)` at which each gas has the common pressure fill the cell.

### C18 A converged PTE status means the returned state satisfies the solver's convergence test — partial

If PTESolver returns converged=true, the state written back satisfies the solver's own CheckPTE test; with default parameters that means relative residuals below 1e-6 (1e-4 in temperature), and a stalled state is accepted within 100 (10) times that, also for tolerances the user assigns (false: the relaxed tolerances do not follow the assignment).

Over: every iteration history.

In `Verif.Props.PTEDriver`.

* `C18_converged` — if the driver reports `converged` without the slow-convergence flag, the returned state is some state on which `CheckPTE` returned true, after only `Fixup` and the unscaling `Finalize`. If it reports `converged` with the flag, the state on which `CheckPTE` last ran was acceptable (not converged), and the returned state comes from one more, unchecked, Newton update of that state.
* `C18_violated` — is violated in the slow-convergence branch: there is a system for which the driver, with the default parameters, reports `converged` although the state it returns passes neither the convergence test nor the weaker acceptance test, and has a larger error than the state it started from.
* `C18_converged_no_fixup` — for solvers whose `Fixup` does nothing (PT, FixedT, FixedP, RhoU): an unflagged `converged` means that the returned state is exactly a checked state, unscaled.
* `C18_rhoT_meaning` — RhoT: if the test passes, the energies sum to the total within the energy tolerance and any material's pressure is within the pressure tolerance of material `ms`.
* `C18_pt_meaning` — PT: volumes and energies sum to their totals within the tolerances.
* `C18_fixedT_meaning` — FixedT: volumes sum to the total and neighbouring pressures agree within the tolerances.
* `C18_fixedP_meaning` — FixedP: volumes sum to the total and, for a non-negative scale, each pressure (unscaled) is within the larger of the two pressure tolerances — an absolute bound — of the requested one.
* `C18_rhoU_meaning_partial` — RhoU: neighbouring pressures and temperatures agree within the tolerances (nothing is said about volumes or energies, see `C18_rhoU_energy_violated`).
* `C18_rhoU_energy_violated` — is violated for RhoU: with the default tolerances the test passes for any number of materials in pressure and temperature equilibrium however far the volumes and energies are from their totals.
* `C18_default_tolerances` — the tests with the default tolerances, with their numbers: relative 1e-6 in pressure, energy and volume, 1e-4 in temperature (for RhoU and FixedP the same in the units of the residual). `errP`, `errT` are root sums of squares of the residuals, `meanP`, `meanT` the mean pressure and temperature.
* `C18_converged_is_acceptable` — with the default tolerances a state that passes the test of a solver also passes its relaxed ("sufficient") test, for each of the five solvers; so a converged state is never reported as unacceptable.
* `C18_sufficient_tolerances` — the relaxed tolerances of a fresh `MixParams` are 1e-4 (1e-3 in temperature).
* `C18_assigned_tolerances_violated` — is violated for changed tolerances: the relaxed tolerances are computed when the parameters are made and do not follow a later assignment. After tightening the tolerances however far (here for the PT solver, to `ε` each) the solver still accepts a stalled state with residuals up to 1e-4; after loosening them beyond 1e-4 a converged state is not acceptable.

### C19 PTE residual Jacobian is the derivative of the residual — proved

For each PTE solver, the linear system's matrix is minus the Jacobian of the residual with respect to the unknowns, with derivatives taken at points within the finite-difference perturbation of the current state, so the Newton step solves the linearised PTE equations; for the (P,T) solver at a non-zero pressure (at zero pressure its matrix is singular).

Over: every material count and state, differentiable EOS.

In `Verif.Props.PTEJacobian`, `Verif.Props.PTETrial`.

* `C19_rhoT` — `PTESolverRhoT`. `v` are the current volume fractions (summing to 1) and `δ m` is the change of volume fraction of material `m` that `TestUpdate` applies for the full step; `dx 0` is the change of temperature.
* `C19_rhoT_newton` — `PTESolverRhoT`, Newton step: if `J dx = residual`, the linearised pressures are all equal and the linearised energies sum to the total.
* `C19_pt` — `PTESolverPT`: unknowns `dx 0 = δT`, `dx 1 = δP`. The volume fraction of a material is `rhobar/rho`, whose first-order change is `-(rhobar/rho²) δrho`; `c m` stands for `rhobar/rho²` of material `m` and `rT`, `rP`, `uT`, `uP` for the four finite-difference derivatives.
* `C19_fixedT` — `PTESolverFixedT`: unknowns are the volume fractions.
* `C19_fixedP` — `PTESolverFixedP`: unknowns are the `n` volume fractions and the temperature `dx n`.
* `C19_rhoU` — `PTESolverRhoU` with at least two materials: unknowns are the `n` volume fractions `dx m` and the `n` energy densities `dx (n+m)`. (With one material the stores fall outside the block; `CheckPTE` then accepts the initial state, so the matrix is never formed.)
* `C19_rhoT_differences` — the derivatives RhoT puts into its matrix: for materials in EOS states at the common temperature, each is a derivative of the material's own pressure or energy density, taken within the perturbation of the current state, `dpdv` being cut off at `-|pte_max_dpdv|`; the first entry of the matrix is the sum over the materials of temperature derivatives of their energy densities.
* `C19_fixedT_differences` — FixedT.
* `C19_fixedP_differences` — FixedP.
* `C19_rhoU_differences` — RhoU: derivatives with respect to the volume fraction at fixed energy and with respect to the energy density at fixed volume of the pressure and temperature the EOS gives at `(rho, e)`. `dtde` is replaced by `derivative_eps` on the cold curve, where it is smaller than `min_dtde`.
* `C19_pt_differences` — PT: at `(P, T)` with densities and energies the EOS gives there, the four entries of the matrix are sums over the materials of derivatives, within the perturbation, of the density and energy the EOS gives as functions of pressure or temperature. (`rhobar/rho^2` times the density derivative is minus the derivative of the volume fraction.)
* `C19_pt_zero_pressure_violated` — fails for PT at zero pressure: the pressure perturbation is then zero, so the pressure column of the matrix is zero whatever the equations of state, and the matrix is singular.

Limit: C19_pt_zero_pressure_violated shows why a non-zero pressure is needed.

### C20 SetVfracFromT never exceeds per-material volume caps when it reports success — partial

When SetVfracFromT returns true the volume fractions sum to the total and none exceeds the material's maximum volume fraction at that temperature.

Over: every number of materials, temperature and caps.

In `Verif.Props.PTEInit`, `Verif.Props.PTETrial`.

* `C20_fail_iff` — `SetVfracFromT` fails exactly when the per-material maxima cannot add up to the total volume.
* `C20_success_sum` — on success, for a positive total volume, positive material masses and positive minimum densities, every volume fraction is positive and they sum to the total (up to the `robust::ratio` factor `s/(s+SMALL)` of the last normalisation).
* `C20_caps_partial` — what is missing: the final normalisation may raise a capped fraction, see `C20_violated`: if the water-filling loop stops because less than `1e-12` of volume had to be moved, the final fractions are the capped ones times one common factor `vt / (s + SMALL)`, where `s` is their sum; so when the capped fractions still add up to `vt` no maximum is exceeded.
* `C20_violated` — is violated: with three materials, guesses (0.8, 0.15, 0.05) and maxima (0.1, 0.2, 1), the routine succeeds but the first volume fraction ends more than 10% above its maximum.
* `C20_redistribution_pass` — one pass of the redistribution loop. A material above its cap is set to the cap; a material further than `min_dv` below its cap receives one share of the excess, the excess being divided by the number of materials that were not cut back by more than `min_dv`; if those are exactly the receivers, no volume is lost.

### C21 The small linear solver solves the system — proved

solve_Ax_b_wscr for n=1 and n=2 returns true only with A x = b (up to SMALL), and returns false for a zero row.

Over: all matrices and right-hand sides.

In `Verif.Props.MixUtils`.

* `C21_solve_one` — with one unknown, success means `a*x = b` up to the `robust::ratio` factor of the row scaled to unit magnitude, i.e. `a*x*(1+SMALL) = b`; failure happens exactly for `a = 0`.
* `C21_solve_two` — with two unknowns, failure happens exactly when a row is zero; on success with a non-singular matrix, `x` solves the caller's system with the right-hand side multiplied by `d/(d+SMALL)`, where `d` is the magnitude of the determinant after each row is scaled to unit maximum.

### C22 PTE step limiters keep every bounded quantity in bounds — partial

After ScaleDx the scaled step applied to the unknowns keeps each volume fraction in (0,vfrac_total], each density above its minimum and temperature (and pressure) within range.

Over: all material counts and steps.

In `Verif.Props.PTESolvers`.

* `C22_fixedT` — FixedT: whatever `dx`, after `ScaleDx` every trial step `t ∈ [0,1]` of the line search has strictly positive volume fractions, and each material that was not below its minimum density stays at or above it. The scale lies in `[0,1]`.
* `C22_fixedP` — FixedP: as FixedT, with the minimum density taken at the old and the proposed temperature (`Tnew`, the temperature reached by at least the step really taken), and the temperature stays positive.
* `C22_fixedP_minimum_density` — FixedP: consequently, for materials whose minimum density varies monotonically with temperature, a material that satisfied its minimum density at the old temperature and at the temperature of the unscaled part of the step still does at the very temperature of the trial state.
* `C22_rhoU` — RhoU: after `ScaleDx` every trial step keeps the volume fractions positive, the linearised temperature change keeps each temperature above 9/10 of its value, and the scale lies in `[0,1]`.
* `C22_rhoT_partial` — RhoT, for mixtures filling the cell (`∑ vfrac = 1`): after `ScaleDx` every trial step keeps all volume fractions and the temperature positive; if no material is beyond its maximum volume fraction beforehand, none goes beyond it.
* `C22_pt_partial` — PT: after `ScaleDx` every trial step keeps the temperature positive and the pressure above each material's minimum pressure (scaled), if it was above; the scale lies in `[0,1]`. Missing: the maximum pressure, see `C22_pt_max_pressure_violated`.
* `C22_pt_max_pressure_violated` — is violated by PT for the maximum pressure: `ScaleDx` divides the distance to `Pmax` by the temperature increment `dx[0]` instead of the pressure increment `dx[1]` (`mixed_cell_models.hpp:1403`), so a full accepted step can overshoot `MaximumPressureAtTemperature`.
* `C22_rhoT_violated` — is violated by RhoT when some material is already beyond its maximum: the `continue` skips `dx[idx++]` (`mixed_cell_models.hpp:1131-1138`), the next material is then limited with the wrong entry of `dx`, and a material that was within its maximum is pushed beyond it.

### C23 ApproxTemperatureFromRhoMatU returns a temperature in its search window that brackets the energy — proved

The routine returns a temperature in [1e-9,1e9] and keeps the invariant that the total energy at the lower end is <= target <= the energy at the upper end whenever that holds initially.

Over: every EOS list with monotone energy, every energy.

In `Verif.Props.PTEInit`.

* `C23_approx_temperature` — . `U T` is the total energy density at temperature `T` (mass-weighted material energies, an arbitrary function). For any exponential/logarithm pair the result is in `[1e-9, 1e9]`, and either the target is outside the energies at the ends of that window and the corresponding end is returned, or the result lies between two temperatures of the window whose energies bracket the target and whose logarithms differ by at most the larger of 0.01 and 2⁻¹⁰ of the window.

### C24 Concurrent cells never share scratch rows in the C interface — proved

In get_sg_eos every cell being processed has exclusive use of its scratch row, whatever the schedule.

Over: every number of cells, threads and every interleaving of starts and finishes.

In `Verif.Props.CSchedule`.

* `C24_exclusive_rows` — under every schedule of starts and finishes, the scratch rows of the cells being processed are pairwise different and lie within the allocated rows.
* `C24_schedule_independent` — schedule independence. Iterations that touch only their own cell and scratch row, dispatched to different cells, and whose cell result does not depend on what an earlier iteration left in the row: once the loop is over every cell holds what processing it alone would give, and cells not named in the offset list are untouched, whatever the interleaving, the number of tokens and the token assignment.

### C25 The C interface's lambda cache does not overlap the PTE solver's arrays — partial

In get_sg_eos the per-cell lambda cache and the arrays used by the PTE solver are disjoint and both lie within the allocated scratch row.

Over: every input mode, material count and number of participating materials.

In `Verif.Props.CInterface`.

* `C25_cache_partial` — what does hold: in (P,T) mode there is no solver and the cache fits the row exactly; in (rho,e) mode the cache is clear of all solver arrays for one or two participating materials.
* `C25_cache_violated` — is violated in (rho,T) and (rho,P) mode for every number of participating materials, and in (rho,e) mode for three or more: the first lambda slot is a cell of a solver array (`dpdv`, `dpdv`, `vtemp`).
* `C25_row_overrun_violated` — is violated: with one or two materials, all participating, the (rho,e) lambda cache runs past the end of the scratch row (into the next cell's row), and with two materials the (rho,P) solver's own arrays do.
* `C25_rhoE_fits_iff` — the exact condition for the row to be long enough in (rho,e) mode.
* `C25_solver_row` — the solver's own arrays fit their row in (rho,T) and (rho,e) mode; in (rho,P) mode they do exactly when `npte² + 11 npte + 5 ≤ nmat² + 13 nmat`, so never with one or two materials that all participate and always with three or more materials.
* `C25_cache_row` — the end of the lambda cache lies in the row in (rho,T) mode always; in (rho,P) and (rho,e) mode exactly when `npte² + 11 npte + 5 ≤ nmat² + 13 nmat`.

### C26 get_sg_eos restores mass fractions and leaves inputs untouched with mult=0 — proved

After the final functor the caller's mass fractions are the originals, and quantities that are inputs in the chosen mode are unchanged.

Over: all modes and states.

In `Verif.Props.CInterface`.

* `C26_mass_fractions_restored` — whatever the mode, the EOS answers and the solver's result, after the call the mass fractions hold their original values, provided they do not sum to zero.
* `C26_inputs_unchanged` — the quantities that are inputs in the chosen mode are not changed: density (as specific volume) and temperature in (rho,T), density and pressure in (rho,P), pressure and temperature in (P,T), density and energy in (rho,e); the volume too in the three density modes.
* `C26_pmax` — the recorded maximum pressure never decreases and bounds the returned pressure.
* `C26_some_material` — at least one material participates whenever the cutoff is below the reciprocal of the number of materials and the mass fractions do not sum to zero, so no scratch value is read before it is written.
* `C26_energy_sum_rhoT` — with participating materials selected by the kernel, their internal energies written to the per-material array sum to `sie * (total mass)` in (rho,T) mode with more than one material: the cell energy and the material energies agree.
* `C26_PT_totals` — in (P,T) mode material volumes add up to the cell volume, the specific volume is volume per mass, and material energies add up to `sie * mass`; each material's volume is its mass over its density.

### C27 Host initialisation does not modify the caller's modifier parameters — partial

init_sg_* called twice with identical arguments creates the same EOS both times.

Over: all parameter arrays and enable flags.

In `Verif.Props.CInterface`.

* `C27_modifiers` — the EOS stored is the base EOS under the enabled modifiers in the documented order, with the ramp parameters given by the caller, or converted from P-alpha parameters when flag 3 is set (flag 3 wins).
* `C27_repeatable_partial` — partial: without flag 3 the caller's parameter array is untouched, so a second identical call stores the same EOS.
* `C27_scale_shift_kept` — entries 0 and 1 (scale and shift) are never modified.
* `C27_repeatable_violated` — is violated with flag 3: whatever the root finder returns, for a reference density 2 and a P-alpha parameter 4 the first call overwrites the parameter by a density close to 1/2, and the same call repeated with the same array stores a ramp with a different initial density (close to 4).

### C28 ScaledEOS is the wrapped EOS under rho->scale*rho, sie->sie/scale — proved

Temperature, pressure, entropy, bulk modulus and Gruneisen queries of ScaledEOS equal the wrapped EOS at scale*rho and sie/scale (entropy times scale), density limits, reference state and P-T derivatives are converted likewise, and Gruneisen parameter and bulk modulus remain the derivatives of the pressure.

Over: every wrapped EOS, every nonzero scale, all states.

In `Verif.Props.Modifiers`.

* `C28_scaled_queries` — temperature, pressure, entropy, bulk modulus and Gruneisen queries of `ScaledEOS` are the wrapped ones in scaled units.
* `C28_scaled_other` — the introspection and derivative queries of `ScaledEOS` in scaled units.
* `C28_scaled_pressure_derivatives` — pressure-derived quantities stay consistent: Gruneisen parameter and isentropic bulk modulus of the scaled EOS are the right derivatives of its pressure.

### C29 ShiftedEOS is the wrapped EOS under sie->sie-shift — proved

Every ShiftedEOS query equals the wrapped one at shifted energy; inversions round-trip; minimum energy is shifted; shifting by zero is the identity and shifts compose additively.

Over: every wrapped EOS, shift and state.

In `Verif.Props.Modifiers`.

* `C29_shifted_queries` — every two-input query of `ShiftedEOS` is the wrapped query with the energy zero moved.
* `C29_shifted_other` — the remaining queries: minimum energy, energy from pressure (guess and result), density and energy from pressure and temperature, derivatives, reference state, limits of the domain.
* `C29_shifted_inversions` — temperature/energy inversions and twin queries keep agreeing after a shift.
* `C29_shifted_thermodynamics` — thermodynamic consistency (heat capacity, Gruneisen parameter, isentropic bulk modulus, entropy) survives a shift.
* `C29_shift_zero_and_compose` — a zero shift changes nothing, and shifts add up.

### C30 BilinearRampEOS pressure is the max of ramp and EOS and is continuous — proved

The pressure returned is the larger of the ramp and the wrapped pressure; for every accepted parameter set whose mid point is not below r0 the ramp is 0 below r0, non-negative, continuous and non-decreasing, its density query inverts it, and the P-alpha construction passes through its two prescribed points; all other queries are those of the wrapped EOS above the ramp. (CheckParams also accepts mid points below r0, where the ramp drops to a negative pressure.)

Over: every wrapped EOS, accepted ramp parameters and density.

In `Verif.Props.Ramp`.

* `C30_ramp_is_max` — the pressure is the larger of the ramp and the wrapped pressure, whichever way the state is given; all queries but pressure and bulk modulus are those of the wrapped EOS.
* `C30_ramp_monotone` — the ramp vanishes below `r0` (and at `r0`), is never negative, and never decreases with density, for every accepted parameter set whose mid point is not below `r0`.
* `C30_ramp_regularisation` — the regularised division changes the ramp by at most the stated (relative order `SMALL`) amount, at every density above zero.
* `C30_ramp_inverse` — the ramp's density-from-pressure is the inverse of its pressure, for `b > 0`, nonnegative pressures and densities from `r0` up.
* `C30_palpha_points` — the ramp constructed from P-alpha parameters goes through the elastic limit `(rmid, Pe)` and the crush point `(r1, Pc)` found by the root finds.
* `C30_ramp_accepts_decreasing_violated` — is violated: `CheckParams` accepts parameters whose mid point lies below `r0`; the ramp then drops to a negative pressure at `r0`.
* `C30_above_ramp` — above the ramp the EOS is untouched: pressure and bulk modulus are the wrapped ones wherever the wrapped pressure is at least the ramp's.
* `C30_ramp_twins` — temperature/energy round trips and the twin queries keep agreeing under a ramp.
* `C30_ramp_continuous` — the ramp is continuous at every density.
* `C30_ramped_pressure_continuous` — with a continuous wrapped pressure the ramped pressure is continuous in density.

Limit: C30_ramp_accepts_decreasing_violated is the accepted bad parameter set named in the statement.

### C31 FlooredEnergy never evaluates below the cold curve and is idempotent — proved

Every query by energy through FlooredEnergy equals the wrapped EOS at max(e, MinInternalEnergy(rho)); wrapping twice equals wrapping once; energies above the floor are unaffected.

Over: every wrapped EOS and state.

In `Verif.Props.ModifierAtoms`, `Verif.Props.Modifiers`.

* `C31_floored_other` — the P-T derivatives through `FlooredEnergy` are those of the wrapped EOS at the floored energy, and `FillEos` evaluates at the floored energy without changing the energy passed in.
* `C31_floored_queries` — every by-energy query is the wrapped query at the larger of the energy and the minimum energy; by-temperature queries are untouched.
* `C31_floored_idempotent` — flooring is idempotent, the identity above the floor, and constant below it.
* `C31_floored_never_below` — the wrapped EOS is never evaluated below its minimum energy when that minimum does not depend on the lambda: any property of the wrapped answers that holds on or above the minimum holds for all answers of the floored EOS.

### C32 RelativisticEOS bulk modulus is the causal one — proved

The bulk modulus returned is max(0, B/|c^2+e+P/rho|), is never negative, implies a sound speed below c whenever the wrapped bulk modulus does not exceed rho times the relativistic enthalpy, by-temperature and by-energy queries agree, and every other query is unchanged.

Over: every wrapped EOS and state.

In `Verif.Props.Modifiers`.

* `C32_relativistic_formula` — the relativistic bulk modulus is `max(0, B) / (|h| + SMALL)` with `h = c^2 + e + P/rho` the specific enthalpy including rest mass.
* `C32_relativistic_formula_temperature` — the same by temperature, with the wrapped energy and pressure at that temperature.
* `C32_relativistic_other` — every other scalar member is the wrapped one (`FillEos` included, see C69).
* `C32_relativistic_causal` — the relativistic bulk modulus is never negative and the implied sound speed `c sqrt(B/rho)` never exceeds `c` when the wrapped bulk modulus satisfies `B <= rho |h|`.
* `C32_relativistic_transparent` — all other scalar queries are those of the wrapped EOS.
* `C32_relativistic_twin` — by-temperature and by-energy bulk moduli agree if the wrapped twins do.

### C33 ZSplit electron and ion parts sum to the whole — proved

For the same state, the electron-split and ion-split EOS return pressures, energies, heat capacities and bulk moduli that sum to those of the unsplit EOS at ionisation Z; conversions invert each other.

Over: every wrapped EOS, Z>=0 and state.

In `Verif.Props.ModifierAtoms`, `Verif.Props.ZSplit`.

* `C33_reference_sum` — the reference states of the two parts sum to that of the whole in energy, pressure, heat capacity and bulk modulus (up to the factor of the regularised division, 1 for `SMALL = 0`, see `C33_parts_sum`), and share its density and temperature.
* `C33_parts_sum` — at the same density and temperature the electron and ion parts of energy, pressure, heat capacity, bulk modulus, entropy and minimum energy sum to the unsplit ones (up to the factor `(Z+1)/(Z+1+SMALL)` of the regularised division, exactly 1 for `SMALL = 0`).
* `C33_parts_sum_by_energy` — at the same temperature, the by-energy queries at each part's own energy also sum.
* `C33_part_queries` — each part is the wrapped EOS in units scaled by its share (ions for every `Z`, electrons for `Z > 0`), so every thermodynamic law of the wrapped EOS holds for each part.
* `C33_part_thermodynamics` — the split EOS recover the temperature from the energy, the twins agree, and each part satisfies the thermodynamic identities of the wrapped EOS.

### C34 UnitSystem conversions are mutually inverse and consistent — partial

An EOS wrapped in UnitSystem gives the wrapped answer converted to the new units for every query, for scalar and vector calls alike; with all units 1 it is the identity.

Over: every wrapped EOS, unit set and state.

In `Verif.Props.ModifierAtoms`, `Verif.Props.Modifiers`.

* `C34_base_units` — constructor from base units: if one cgs second, gram, centimetre is `time`, `mass`, `length` of the new system (so that a mass `m` g is `m * mass`, and so on), then densities, energies, pressures in the new system are converted to cgs by the stored factors.
* `C34_base_units_violated` — fails for the documented convention "multiply by the unit to get cgs" (as in the library's own test: microseconds, `time_unit = 1e-6`): one `cm^2/us^2` is `1e12 erg/g`, but the stored factor is `1e-12`.
* `C34_base_units_temperature` — under neither convention are all four units converted the same way unless the temperature unit is its own inverse: temperatures are multiplied by the unit to get Kelvin, while times, masses and lengths are divided by theirs.
* `C34_unit_queries` — every scalar query of `UnitSystem` is the wrapped query converted to the new units.
* `C34_unit_other` — the other scalar members: limits, reference state, energy from pressure, density and energy from pressure and temperature.
* `C34_unit_fill` — `FillEos` converts in, calls, and converts out: untouched quantities come back unchanged.
* `C34_unit_inversions` — inversions and thermodynamic consistency survive a change of units.
* `C34_unit_thermodynamics` — thermodynamic derivatives survive a change of units.
* `C34_unit_identity_compose` — unit factors one are the identity; two unit systems compose multiplicatively.
* `C34_unit_derivatives` — pressure-temperature derivatives are converted by their dimensions, with the safe division (exact when `SMALL` is read as 0).

### C35 Every EOS produced by the modifier pipeline is a member of the EOS variant — proved

Applying shift, scale and ramp in the host interface always yields a type in the variant's type list; the type list has no duplicates and contains each base EOS and each modified one.

Over: all base EOS types and modifier flags.

In `Verif.Props.TypeLists`.

* `C35_transform` — applying a list of modifier templates to a list of types gives every modifier applied to every type, in order, minus directly repeated modifiers `M<M<T>>` of the listed ones.
* `C35_members_exact` — the variant's type list consists of exactly the types the host interface can build: base, optionally shifted, optionally scaled outside the shift, optionally ramped outside both.
* `C35_init_in_variant` — whatever the enable flags and parameter values, what `init_sg_*` stores has a type in the variant (given the base EOS is in the base list).
* `C35_no_duplicates` — no duplicates (a `variant` with duplicate alternatives could not be constructed by type), and eight alternatives per base EOS.

### C36 IdealGas inversions and thermodynamic identities — proved

For IdealGas: T(rho,e(rho,T))=T, P(rho,T)=P(rho,e(rho,T)), rho,e from P,T invert, bulk modulus is rho dP/drho at constant entropy, dP/de and heat capacity are derivatives of P and e, FillEos agrees with the individual queries.

Over: all positive parameters and states.

In `Verif.Props.Eos.Ideal`.

* `C36_ideal_consistent` — IdealGas is thermodynamically consistent at every state of positive density and temperature.
* `C36_ideal_round_trip` — for every temperature and energy, including negative ones, the two inversions clamp at zero and otherwise cancel.
* `C36_ideal_nonneg` — no query of IdealGas returns a negative temperature, energy, pressure or bulk modulus, at any input.
* `C36_ideal_inversions` — the pressure inversions are exact: for nonnegative pressure, positive temperature and density.
* `C36_ideal_pt_derivatives` — the four analytic pressure-temperature derivatives are the derivatives of the inversion.
* `C36_ideal_fill` — for IdealGas: for every way of naming two of density, temperature, energy and pressure as inputs and the rest as outputs that the code accepts, `FillEos` succeeds, keeps its inputs, returns the direct queries, and the state has the pressure and temperature passed in.

### C37 StiffGas inversions and identities — proved

As C36 for StiffGas including the density-temperature from pressure inversion and the pressure-zero floor.

Over: all positive parameters and states.

In `Verif.Props.Eos.Stiff`.

* `C37_stiff_consistent` — StiffGas is thermodynamically consistent at every state of positive density and temperature.
* `C37_stiff_floors` — at every input, also unphysical ones, the temperature is at least `SMALL`, the pressure at least `-Pinf`, the energy at least `q` and the bulk modulus at least `SMALL`.
* `C37_stiff_inversion` — density and energy from pressure and temperature invert the queries exactly, for every pressure above `-Pinf` with `P + (gm1+1) Pinf` nonnegative and every positive temperature.
* `C37_stiff_fill` — for StiffGas: `FillEos` keeps its inputs, returns the direct queries and a state with the pressure and temperature passed in, for every accepted way of naming inputs.

### C38 NobleAbel inversions, identities and FillEos agreement — partial

As C36 for NobleAbel; FillEos returns the same bulk modulus as BulkModulusFromDensityInternalEnergy.

Over: all positive parameters and states.

In `Verif.Props.Eos.Stiff`.

* `C38_noble_consistent` — NobleAbel is thermodynamically consistent at every positive density below the inverse covolume and every positive temperature.
* `C38_noble_floors` — at every input the temperature, pressure and bulk modulus are at least `SMALL` and the energy at least `q`, which is what `MinInternalEnergyFromDensity` reports.
* `C38_noble_inversion` — density and energy from pressure and temperature invert the queries exactly and give a density below the inverse covolume.
* `C38_noble_fill_partial` — `FillEos` of NobleAbel when energy is an output of (density, temperature) or (pressure, temperature), or an input.
* `C38_noble_fill_pressure_violated` — is violated: `FillEos` with density and pressure as inputs computes an energy whose pressure is `rho * P`, not `P`, for every nonnegative state below the inverse covolume.

### C39 CarnahanStarling is thermodynamically consistent and its density inversion accurate — proved

At every positive density below the inverse covolume and every positive temperature, CarnahanStarling's energy, pressure, entropy, heat capacity, Gruneisen parameter and bulk modulus satisfy the thermodynamic laws; for every positive pressure and temperature exactly one density below the inverse covolume has that pressure and the density query, if it does not abort, returns one within 2e-9 of it (with an explicit condition under which it cannot abort); without covolume the density is exact; the energy FillEos computes from density and pressure has that pressure.

Over: all parameters.

In `Verif.Props.Eos.Carnahan`, `Verif.Props.Eos.Inversions`.

* `C39_carnahan_consistent` — CarnahanStarling is thermodynamically consistent at every positive density below the inverse covolume and every positive temperature; `r0` is the constructor's reference density.
* `C39_density_bracket` — for every nonnegative pressure and positive temperature there is exactly one density in `[0, 1/b)` with that pressure. `DensityFromPressureTemperature` aborts or returns a density in `[0, 1/b]` that is the centre of an interval containing it, and no wider than `2e-9` unless both end residuals of the root find are within `1e-9` (no abort and closeness in both cases: `C39_density_accuracy`).
* `C39_density_ideal_limit` — without covolume the density is exact, and at or below the smallest temperature it is zero.
* `C39_fill_energy` — the energy computed by `FillEos` from density and pressure has that pressure.
* `C39_density_accuracy` — accuracy of the density found for a pressure and temperature: for every positive pressure and temperature there is exactly one density below the inverse covolume with that pressure, and a call that does not abort returns a density within `2e-9` of it. It cannot abort if, with `M = 3 + 3 b P / (Cv (g-1) T)`, `M ≤ 2^p`, `(1 - 1/(2M))^q / b ≤ 1e-9` and `(p + 2) q < 1000`.

### C40 JWL inversions and Mie-Gruneisen consistency — proved

JWL: temperature and energy invert each other and by-temperature queries equal their by-energy twins at every state; heat capacity, Gruneisen parameter and bulk modulus are the derivatives they are named after and the first law holds (away from the densities where an exponential is cut off); with nonnegative coefficients the pressure rises strictly with density, and the density from pressure and temperature, if the call does not abort, is within max(1e-8, 2e-8/(w Cv T)) of the one that has that pressure in [1e-5,1e3], returned with its energy.

Over: all parameters and states.

In `Verif.Props.Eos.Inversions`, `Verif.Props.Eos.Jwl`.

* `C40_jwl_density_accuracy` — accuracy of `DensityEnergyFromPressureTemperature`. With nonnegative coefficients and positive `w Cv T`, if some density `ρ` in `[1e-5, 1e3]` has the requested pressure at the requested temperature and the guess is usable, a call that does not abort returns a density within `max 1e-8 (2e-8 / (w Cv T))` of `ρ`, and the energy at that density.
* `C40_jwl_round_trip` — temperature and energy invert each other and by-temperature queries agree with their by-energy twins, at every density, temperature and energy whatsoever.
* `C40_jwl_consistent` — heat capacity, Gruneisen parameter and bulk modulus are the derivatives they are named after, and energy and pressure satisfy the first law, at every positive density (except the one or two densities where an exponential is cut off) and every temperature of any sign.
* `C40_jwl_pressure_monotone` — with nonnegative coefficients the pressure at fixed positive temperature strictly increases with density, so at most one positive density has a given pressure.
* `C40_jwl_density_energy` — `DensityEnergyFromPressureTemperature`. If the guess is usable and the requested pressure lies between the pressures at densities `1e-5` and `1e3`, a call that does not abort returns a density in that range at the middle of an interval over which the pressure at that temperature crosses the requested pressure, together with the energy at that density and temperature. How close the density is: `C40_jwl_density_accuracy`.
* `C40_jwl_energy_from_pressure` — energy from density and pressure (without a guess) is within `EPS` of the exact energy, or its pressure within `EPS` of the request, whenever the exact energy lies strictly between the energies at temperatures `0` and `1e20`, i.e. whenever the state's temperature does.

### C41 Gruneisen: bulk modulus, inversion and continuity — partial

Gruneisen: T/e inversion is exact, P is continuous at rho0, the bulk modulus is rho dP/drho|_s in compression and expansion, and densities above the maximum are treated as the maximum.

Over: all parameters and states.

In `Verif.Props.Eos.Gruneisen`, `Verif.Props.Eos.Inversions`.

* `C41_gruneisen_round_trip` — temperature and energy invert each other and by-temperature queries agree with their by-energy twins at every density (also above the maximum), temperature and energy.
* `C41_gruneisen_clamps` — every density above the maximum is treated as the maximum density, by every query.
* `C41_gruneisen_heat_capacity` — the heat capacity is the temperature derivative of the energy.
* `C41_gruneisen_gruneisen` — up to the maximum density the Gruneisen parameter is `(1/rho) dP/de`.
* `C41_gruneisen_continuous_at_reference` — the two branches of the pressure join at the reference density, where the pressure is `P0 + G0 rho0 e`; it is continuous there from both sides.
* `C41_gruneisen_bulk` — the bulk modulus is the isentropic derivative of the pressure, in expansion and in compression, at every positive density below the maximum except the kink at the reference density, as long as the compression is not the singular one.
* `C41_gruneisen_kink_violated` — is violated at the reference density: the one-sided slopes of the pressure differ by `(b - G0) e - G0 P0 / rho0`, so the pressure has a kink there unless that vanishes.
* `C41_gruneisen_gruneisen_above_max_violated` — is violated above the maximum density: the pressure depends on the energy through the maximum density, the reported Gruneisen parameter times the actual density does not match.
* `C41_gruneisen_minimum_pressure` — the reported minimum pressure is a lower bound on the pressure at every nonnegative energy in expansion, and it is attained at zero density.
* `C41_gruneisen_density_energy_expansion_partial` — partial: `DensityEnergyFromPressureTemperature` in expansion: for a requested pressure between the pressure at zero density and the pressure at the reference density, a call that does not abort returns a density in `[0, 1.1 rho0]` at the middle of an interval over which the pressure at that temperature crosses the requested one, with the energy at that density and temperature. How close: `C41_gruneisen_density_accuracy`.
* `C41_gruneisen_density_energy_compression_partial` — partial: the same in compression: for a requested pressure from the reference pressure up to the pressure at the largest stable density, provided the reference pressure is the smaller.
* `C41_gruneisen_fill_partial` — `FillEos` with density and energy as inputs and temperature or pressure requested: keeps its inputs and returns the direct queries.
* `C41_gruneisen_fill_overwrites_violated` — are violated: when temperature and pressure are inputs, `FillEos` replaces the density and energy even if they are inputs too; e.g. asking only for the bulk modulus changes the caller's density.
* `C41_gruneisen_minimum_energy` — the minimum energy is the energy at zero temperature, at every density; it is the energy whose temperature is zero, and energies below it are exactly those with a negative temperature.
* `C41_gruneisen_density_accuracy` — accuracy of `DensityEnergyFromPressureTemperature` of Gruneisen in expansion (requested pressure below that at the reference density): where the chords of the pressure through the exact density rise at least at rate `m` over `[0, 1.1 rho0]`, a call that does not abort returns a density within `max 1e-8 (2e-8 / m)` of the exact one, with the energy there.
* `C41_gruneisen_density_accuracy_compression` — and in compression, up to the largest stable density `hi` with pressure `pmax` there (a request above `pmax` is answered as one for `pmax`): where the chords of the pressure through the exact density rise at least at rate `m` over `[0.9 rho0, hi]`, a call that does not abort returns a density within `max 1e-8 (2e-8 / m)` of the exact one. The secant guess it starts from is always inside the interval.

### C42 Gruneisen maximum pressure query returns a pressure consistent with the EOS — partial

MaximumPressureAtTemperature(T) equals the pressure at the maximum density and temperature T.

Over: all parameters and temperatures.

In `Verif.Props.Eos.Gruneisen`.

* `C42_maximum_pressure_is_a_density_violated` — is violated: what `MaximumPressureAtTemperature` returns is a density. Whenever the pressure still increases at the maximum density (the generic case), it returns the maximum density itself, whatever the units, and not the pressure there.
* `C42_max_stable_density_partial` — whenever `MaxStableDensityAtTemperature` returns without the root finder, it is the maximum density, and the pressure then is nondecreasing there; otherwise it searched for a zero of the slope between a point where the slope is nonnegative and one where it is negative.

### C43 DavisReactants inversions, cold energy and bulk modulus — partial

DavisReactants: T/e inversion holds above the minimum energy; T>=0 everywhere and 0 at or below MinInternalEnergy; the reference-isentrope pressure is -dE/dv; bulk modulus is the isentropic derivative.

Over: all parameters and states.

In `Verif.Props.Eos.DavisReac`.

* `C43_reactants_round_trip` — the temperature of the energy at `T` is `T`, at every density (also nonpositive) and every `T ≥ 0`; by-temperature queries agree with their by-energy twins.
* `C43_reactants_round_trip_energy` — the energy of the temperature at `e` is `e`, at every density and every energy from the minimum up.
* `C43_reactants_minimum_energy` — no query returns a negative temperature; the temperature is zero exactly at or below the minimum energy, the minimum energy is the energy at zero temperature, and the temperature strictly increases with energy above it.
* `C43_reactants_heat_capacity` — the heat capacity is the temperature derivative of the energy, at every density and positive temperature.
* `C43_reactants_gruneisen` — the Gruneisen parameter is `(1/rho) dP/de` at every state.
* `C43_reactants_isentrope` — the reference isentrope. The energy on it has `dE_s/drho = (P_s + P0) / rho^2`: with `P0 = 0` the pressure on the isentrope is minus the volume derivative of the energy, at every positive density but the reference one. (The energy on the isentrope is the energy at the temperature there, and the pressure there the pressure at that temperature.)
* `C43_reactants_isentrope_violated` — is violated when `P0` is not zero: on the code's reference isentrope the energy's volume derivative is not minus the pressure, it misses it by `P0`.
* `C43_reactants_bulk_partial` — partial: what the bulk modulus is. It exceeds the isentropic derivative of the pressure by `Gamma P0`, and in compression by a further `phat rho0 y / ((1-y)^4 rho)` with `y = 1 - rho0/rho` (`phat = A^2 rho0 / 4B`): a 3 for a 2 in the derivative of `y^2/(1-y)^4`.
* `C43_reactants_bulk_expansion` — with `P0 = 0` the bulk modulus is the isentropic derivative of the pressure in expansion.
* `C43_reactants_bulk_compression_violated` — is violated in compression: with `P0 = 0` (so that nothing else is wrong) the bulk modulus is never the isentropic derivative of the pressure, at any density above the reference density and any energy, for any parameters with `A ≠ 0`.
* `C43_reactants_first_law` — with `P0 = 0` energy and pressure satisfy the first law above the reference density, at every positive temperature.
* `C43_reactants_first_law_expansion_violated` — is violated below the reference density when `Z ≠ 0`: the Gruneisen parameter there is the constant `G0`, but the reference temperature still follows `G0 + Z (1 - rho0/rho)`; with `P0 = 0` the first law then fails at every positive temperature.
* `C43_reactants_density_energy_partial` — partial: `DensityEnergyFromPressureTemperature`. If the reference density is within `[1e-5, 1e3]` and the requested pressure lies between the pressures at those densities, a call that does not abort returns a density in that range at the middle of an interval over which the pressure at that temperature crosses the requested one, with the energy at that density and temperature. How close: `C43_reactants_density_accuracy`.

### C44 DavisProducts inversions and identities — proved

DavisProducts: temperature and energy invert each other and P(rho,T) equals P(rho,e(rho,T)) at every state; heat capacity and Gruneisen parameter are the derivatives they are named after; the reference curve is an isentrope; the first law holds and the bulk modulus is rho dP/drho at constant entropy; the density from pressure and temperature, if the call does not abort, is within max(1e-8, 2e-8/m) of the one in [1e-5,1e3] having that pressure when the chords of the pressure through it rise at rate m, returned with its energy.

Over: all parameters and states.

In `Verif.Props.Eos.DavisProd`.

* `C44_products_round_trip` — temperature and energy invert each other and by-temperature queries agree with their by-energy twins, at every density, temperature and energy.
* `C44_products_heat_gruneisen` — heat capacity and Gruneisen parameter are the derivatives they are named after.
* `C44_products_isentrope` — the reference curve is an isentrope of the EOS: along `T = T_s(rho)` the energy changes by `P/rho^2 drho` and the temperature by `Gamma T/rho drho`.
* `C44_products_first_law` — energy and pressure satisfy the first law and the bulk modulus is the isentropic derivative of the pressure, at every positive density, temperature (of any sign) and energy.
* `C44_products_bulk` — the bulk modulus is `rho` times the isentropic derivative of the pressure.
* `C44_products_density_energy` — `DensityEnergyFromPressureTemperature`. If the reference density is within `[1e-5, 1e3]` and the requested pressure lies between the pressures at those densities, a call that does not abort returns a density in that range at the middle of an interval over which the pressure at that temperature crosses the requested one, with the energy at that density and temperature. How close: `C44_products_density_accuracy`.

### C45 MGUsup: both bulk-modulus queries equal the isentropic derivative — partial

MGUsup bulk modulus from (rho,e) and from (rho,T) agree and equal rho dP/drho|_s; T/e inversion; P(rho,T)=P(rho,e(rho,T)).

Over: all parameters and states.

In `Verif.Props.Eos.MGUsup`, `Verif.Props.Eos.MGUsupHug`.

* `C45_mgusup_round_trip` — temperature and energy invert each other wherever the temperature is nonnegative, at every density; below that the reported temperature is `1e-12` (never negative); the pressures agree, and so do heat capacity and Gruneisen parameter.
* `C45_mgusup_entropy_twin` — by-temperature and by-energy entropies agree for nonnegative temperature when the entropy is nonnegative.
* `C45_mgusup_entropy_twin_violated` — is violated for negative entropies (which the by-temperature query reports): by energy, `1e-12` is reported.
* `C45_mgusup_heat_gruneisen` — heat capacity and Gruneisen parameter are the derivatives they are named after.
* `C45_mgusup_entropy` — the entropy satisfies the first law in temperature and density (whatever the Hugoniot temperature is).
* `C45_mgusup_bulk_energy` — the by-energy bulk modulus is the isentropic derivative of the pressure at every density, including the reference density, short of the singular compression.
* `C45_mgusup_maximum_density` — the singular compression is out of reach: at every positive density up to the reported maximum, `1 - s eta` is positive (for slope `s` not negative), so the by-energy bulk modulus is the isentropic derivative there; for `s > 1` the singular density is `s rho0 / (s - 1)`, about one percent above the reported maximum.
* `C45_mgusup_bulk_temperature_error` — is violated: the by-temperature bulk modulus is not the by-energy one. The two differ, wherever the compression is not zero, by the reference part times `1/eta - 1` and by twice the thermal part (whose sign is wrong).
* `C45_mgusup_bulk_temperature_violated` — violated: in compression the bulk modulus by temperature is not the bulk modulus by energy at the same state (shown on the Hugoniot), for generic parameters.
* `C45_mgusup_first_law_partial` — partial: energy and pressure satisfy the first law at a state exactly when the computed Hugoniot temperature satisfies its differential equation there. (Whether it does is the next theorems' subject.)
* `C45_mgusup_isothermal_bulk_partial` — partial: the isothermal bulk modulus is `rho dP/drho` at constant temperature wherever the Hugoniot temperature satisfies its differential equation.
* `C45_mgusup_hugoniot_temperature_error` — the error of the computed Hugoniot temperature. For compression `x` outside the small-compression branch the computed value is within the stated bound of the exact Hugoniot temperature, that is of any solution of the differential equation that the first law demands starting from `T0`; `N` is the number of series terms the loop summed, at most 21, and at least so many that the last of them is below `1e-16` of the sum or `N = 21`.
* `C45_mgusup_hugoniot_temperature_exists` — The exact Hugoniot temperature exists: the differential equation has a solution wherever `1 - s x` is positive, so the hypotheses of the theorem above can be met for every material.
* `C45_mgusup_first_law_small_violated` — is violated for small compressions and expansions: when `0 < |eta| < 1e-4` energy and pressure do not satisfy the first law, because the shock heating is added with the wrong sign.
* `C45_mgusup_weak_shock_cools_violated` — is violated: behind a weak compression the exact Hugoniot is hotter than the isentrope `T0 exp(G0 eta)`, the computed one is colder.

### C46 PowerMG: Hugoniot pressure polynomial, bulk modulus and expansion branch — partial

PowerMG compression pressure is the polynomial K0*eta*(1+sum K_i eta^i); energy derivative is consistent; bulk modulus is the isentropic derivative in compression and in expansion.

Over: all parameters, coefficients and states.

In `Verif.Props.Eos.PowerMG`, `Verif.Props.Eos.PowerMGHug`.

* `C46_powermg_pressure` — in compression the pressure, by temperature and by energy, is the polynomial `K0 eta (1 + sum_{i=1}^{40} K_i eta^i)` in all forty coefficients the user passed, plus the thermal part; in expansion it is `K0 eta` down to the minimum pressure.
* `C46_powermg_round_trip` — temperature and energy invert each other wherever the temperature is nonnegative, at every density; below that the reported temperature is `1e-12` (never negative); the pressures agree, and so do heat capacity and Gruneisen parameter.
* `C46_powermg_entropy_twin_partial` — by-temperature and by-energy entropies agree for nonnegative temperature when the entropy is nonnegative; when it is negative (the by-temperature query reports it) the by-energy query reports `1e-12`.
* `C46_powermg_heat_gruneisen` — heat capacity and Gruneisen parameter are the derivatives they are named after.
* `C46_powermg_entropy` — the entropy satisfies the first law in temperature and density.
* `C46_powermg_bulk_energy` — in compression and at the reference density the by-energy bulk modulus is the isentropic derivative of the pressure.
* `C46_powermg_bulk_energy_expansion_violated` — is violated: in expansion, above the pressure cutoff, the by-energy bulk modulus is the isentropic derivative only if the reference density happens to be 1 (or the Gruneisen parameter vanishes): the energy on the reference curve lacks its division by the reference density.
* `C46_powermg_bulk_temperature` — the by-temperature bulk modulus is the isentropic derivative of the pressure in compression, at the reference density and in expansion down to the pressure cutoff.
* `C46_powermg_bulk_temperature_cutoff_violated` — is violated below the pressure cutoff: the by-temperature bulk modulus is the isentropic derivative only if the Gruneisen parameter vanishes: it lacks `rho0/rho G0 Pmin / 2`.
* `C46_powermg_bulk_energy_cutoff_violated` — is violated below the pressure cutoff: the by-energy bulk modulus is the isentropic derivative only at one density (or for a vanishing Gruneisen parameter): it is built with the energy of a curve that the energy query does not use.
* `C46_powermg_bulk_twin` — in compression and at the reference density the two bulk moduli agree.
* `C46_powermg_first_law_expansion` — in expansion down to the pressure cutoff energy and pressure satisfy the first law exactly.
* `C46_powermg_first_law_cutoff_violated` — is violated: below the pressure cutoff energy and pressure never satisfy the first law.
* `C46_powermg_isothermal_bulk_partial` — partial: the isothermal bulk modulus is the by-temperature bulk modulus less `rho0/rho G0^2 Cv rho0 T`, and is `rho dP/drho` at constant temperature in expansion down to the cutoff, where the first law holds exactly.
* `C46_powermg_first_law_compression_iff` — That this is what the first law demands (for an EOS whose Hugoniot temperature were `th`).
* `C46_powermg_hugoniot_temperature_error` — the computed Hugoniot temperature in compression is accurate to `1e-15` of the magnitude of the shock-heating terms: it is that close to any solution of the differential equation the first law demands that starts at `T0`; unless the series loop hit its cap of 200. (If all coefficients are nonnegative the bound is `1e-15` times the computed shock heating itself.)
* `C46_powermg_hugoniot_temperature_exists` — The exact Hugoniot temperature exists for every material, so the hypotheses of the theorem above can be met.
* `C46_powermg_hugoniot_temperature_relative` — with nonnegative coefficients the error is at most `1e-15` of the computed shock heating (unless the loop hit its cap).
* `C46_powermg_negative_gruneisen_violated` — is violated for a negative Gruneisen parameter (which the constructor accepts): in compression the series is cut after its first term, and energy and pressure satisfy the first law only where the neglected term happens to vanish.

### C47 Vinet is thermodynamically consistent — proved

Vinet: temperature and energy invert each other at every state; the pressure is the Vinet form with the user's coefficients; energy, pressure and entropy satisfy the first law exactly; heat capacity, Gruneisen parameter, isothermal bulk modulus and expansion coefficient are the derivatives they are named after; the bulk modulus is max(0, rho dP/drho|_s).

Over: all parameters, expansion coefficients and states.

In `Verif.Props.Eos.Vinet`.

* `C47_vinet_round_trip` — temperature and energy invert each other at every state, and each by-energy query is its by-temperature twin.
* `C47_vinet_pressure` — the pressure on the reference isotherm is the Vinet form with the user's coefficients: with `x = (rho0/rho)^(1/3)` and `y = 1 - x`, `P(rho, T) = 3 B0 x^-2 y exp(3/2 (B0' - 1) y) (1 + sum_{n=2}^{40} d_n y^n) + A0 B0 (T - T0)`.
* `C47_vinet_first_law` — energy and pressure satisfy the first law exactly, whatever the coefficients.
* `C47_vinet_heat_gruneisen` — heat capacity and Gruneisen parameter are the derivatives they are named after.
* `C47_vinet_entropy` — for positive temperatures the entropy satisfies the first law in temperature and density.
* `C47_vinet_isothermal` — the isothermal bulk modulus is `rho dP/drho` at constant temperature, and the thermal expansion coefficient is `(dP/dT) / (rho dP/drho)`.
* `C47_vinet_bulk` — the bulk modulus (by temperature and by energy) is `rho` times the isentropic derivative of the pressure when that is nonnegative, and zero otherwise.
* `C47_vinet_consistent` — at every state with positive density and temperature and a nonnegative isothermal bulk modulus (mechanical stability), Vinet satisfies every thermodynamic law.
* `C47_vinet_bulk_clamped_violated` — is violated where the isentropic derivative of the pressure is negative (in strong expansion): zero is reported.

Limit: C47_vinet_bulk_clamped_violated shows the clamp named in the statement is active in strong expansion.

### C48 SAP_Polynomial bulk modulus and Gruneisen match its pressure — partial

For SAP_Polynomial the Gruneisen parameter is (1/rho) dP/de and the bulk modulus is the isentropic derivative of its pressure.

Over: all parameters and states.

In `Verif.Props.Eos.Misc`.

* `C48_sap_density_derivative` — the pressure is differentiable in the density at every density, including the switch between compression and expansion, and the reported bulk modulus is `rho dP/drho` at constant energy.
* `C48_sap_energy_derivative` — what the Gruneisen query returns is `dP/de` at constant density (without the factor `1/rho`).
* `C48_sap_gruneisen_violated` — is violated: the Gruneisen parameter is right only at unit density (or where the pressure does not depend on the energy).
* `C48_sap_bulk_violated` — is violated: the bulk modulus omits the energy term of the isentropic derivative, so it is right only where pressure or `dP/de` vanishes.
* `C48_sap_temperature_violated` — is violated: the temperature queries are stubs; no positive temperature survives the round trip.

### C49 IdealElectrons scale with ionisation — proved

IdealElectrons with ionisation Z behaves as an ideal gas with Z electrons per atom and returns zero pressure and energy for Z=0; T/e inversion for Z>0.

Over: all Z and states.

In `Verif.Props.Eos.Misc`.

* `C49_electrons_are_ideal` — with ionisation `z` every query is the IdealGas query with heat capacity `z` times the heat capacity of singly ionised electrons.
* `C49_electrons_consistent` — positive ionisation makes the electrons a thermodynamically consistent EOS at every state of positive density and temperature.
* `C49_electrons_ideal_gas_law` — for the EOS the constructor builds, the pressure is that of `rho z / (A m_p)` particles per unit volume, `P = n_e k_B T`, and the energy density is `n_e k_B T / (gamma - 1)`.
* `C49_electrons_scale` — pressure, energy, bulk modulus (by temperature) and heat capacity are proportional to the ionisation.
* `C49_electrons_neutral` — neutral matter (or a negative ionisation left by a failed ionisation model) has no electron pressure, energy, bulk modulus or heat capacity at any density and temperature.
* `C49_electrons_round_trip` — temperature is recovered from energy for positive ionisation, at any temperature (clamped at 0).
* `C49_electrons_density_energy` — density and energy from pressure and temperature are a state at that pressure and temperature, for every positive ionisation, pressure and temperature.

### C50 Vector calls equal element-wise scalar calls — partial

Each vector entry point (with or without scratch, with any indexer) produces in slot i the scalar result for inputs i, and does not touch other slots.

Over: every EOS, every length, every initial contents of output arrays, any loop order.

In `Verif.Props.Eos.EospacVec`, `Verif.Props.Vector`.

* `C50_eospac` — without a transform the array calls of EOSPAC are element-wise the scalar calls.
* `C50_base_class` — the array call of the base class (every overload of every EOS without its own array code): element-wise, and nothing else is touched.
* `C50_any_order` — the result does not depend on the order in which the iterations run.
* `C50_in_place` — an in-place call gives the same result, in any order of iterations.
* `C50_shifted` — shifting keeps array calls with scratch element-wise.
* `C50_floored` — flooring keeps array calls element-wise, provided the wrapped minimum energy does not depend on the lambda (the scalar calls use the default lambda for the floor, the array calls the caller's).
* `C50_ramped` — ramping keeps array calls element-wise.
* `C50_scaled` — scaling over an EOS that honours the `Transform` argument honours it again (so stacks of scalings and unit changes over such an EOS are right), in particular it is element-wise.
* `C50_units_queries_partial` — a unit change over an EOS that honours the `Transform` argument honours it for the two-input queries.
* `C50_scaled_over_base_violated` — is violated: scaling over an EOS with the base-class array calls (every EOS but EOSPAC) ignores the scale when a scratch pointer is passed: the result is the unscaled EOS's.
* `C50_scaled_over_base_not_elementwise_violated` — is violated, concretely.
* `C50_scaled_shifted_violated` — is violated: even over an EOS that honours the `Transform` argument, a scale outside a shift is wrong with scratch: the shift is subtracted from the caller's energy before the scale is applied.
* `C50_units_minE_violated` — is violated: the array version of the minimum energy of `UnitSystem` multiplies by the energy unit instead of dividing by it.
* `C50_units_minE_partial` — what the array minimum energy of `UnitSystem` returns over an EOS that honours the `Transform` argument: the right value times the square of the energy unit.

### C51 FillEos honours its input/output flags — partial

FillEos never modifies quantities flagged as inputs, computes exactly the requested outputs, and fails when the inputs are insufficient.

Over: every flag combination and state, each EOS.

In `Verif.Props.Eos.Vinet`, `Verif.Props.Fill`.

* `C51_vinet_partial` — for Vinet: the call aborts exactly when the density, or both temperature and energy, are requested; otherwise, unless both temperature and energy are inputs, every input is kept, and the outputs are the direct queries at the resulting state.
* `C51_vinet_overwrites_temperature_violated` — is violated for Vinet: with density, temperature and energy all inputs the temperature is overwritten.
* `C51_direct` — the shared tail of `FillEos` keeps every input and computes each derived output.
* `C51_gas_inputs_kept` — the gas-type `FillEos` (IdealGas, StiffGas, NobleAbel, CarnahanStarling, SAP_Polynomial, IdealElectrons): whatever the flags, a call that returns has kept every input and every derived output is the direct query at the resulting density and energy.
* `C51_gas_aborts_iff` — it aborts exactly when the energy is requested together with two of density, pressure and temperature.
* `C51_gas_state` — for the four supported pairs of inputs (density and energy; density and temperature; density and pressure; pressure and temperature), if the inversions are right then the resulting density and energy have exactly the pressure/temperature passed in.
* `C51_gas_density_not_computed_violated` — is violated: asking for the density without the energy returns normally with the density untouched: the call does not fail and does not compute the requested output.
* `C51_gas_energy_not_computed_violated` — is violated: asking for the energy alone returns normally with the energy untouched.
* `C51_direct_ignores_requests_violated` — is violated for JWL and the Davis EOS: every call returns, and a requested density or energy is never computed.
* `C51_mg_overwrites_energy_violated` — is violated for MGUsup and PowerMG: with density, temperature and energy all inputs the energy is overwritten by the energy at the temperature.
* `C51_mg_partial` — for MGUsup and PowerMG: the call aborts exactly when the density, or both temperature and energy, are requested; otherwise, unless both temperature and energy are inputs, every input is kept; and the outputs always are the direct queries at the resulting state, which has the given temperature.
* `C51_units` — for `UnitSystem`: if the wrapped `FillEos` keeps its inputs, so does the wrapper's.
* `C51_ramp_partial` — for the ramp: every input but the bulk modulus is kept.
* `C51_ramp_overwrites_bmod_violated` — is violated: the ramp's `FillEos` overwrites the bulk modulus even when it is an input.
* `C51_shift_partial` — for `ShiftedEOS` over an EOS whose preferred input is density and energy: when the energy is an input every input is kept and (derived outputs being computed by the wrapped EOS) the outputs are the shifted direct queries.
* `C51_shift_loses_energy_violated` — is violated by `ShiftedEOS`: with preferred input density and energy, a requested energy is computed into a local variable and lost.
* `C51_shift_changes_input_energy_violated` — is violated by `ShiftedEOS`: with preferred input density and temperature, an energy passed as input comes back with the shift added.
* `C51_shift_scale_abort_violated` — is violated: over an EOS whose preferred input is neither pair (IdealGas lists density, energy, temperature and pressure), `FillEos` of the shifted or scaled EOS aborts for every request, although the unshifted EOS accepts it.
* `C51_scale_partial` — for `ScaledEOS` over an EOS whose preferred input is density and energy, when neither density nor energy is requested.
* `C51_scale_loses_outputs_violated` — is violated by `ScaledEOS`: a requested density never reaches the caller, nor (preferred input density and energy) does a requested energy.
* `C51_scale_changes_input_energy_violated` — is violated by `ScaledEOS`: an input energy is rescaled (preferred input density and temperature).
* `C51_total_agrees` — The total versions used in `Mods` agree with these whenever the wrapped call returns.

### C52 Energy-from-pressure inversion returns an energy with the requested pressure — partial

InternalEnergyFromDensityPressure of the base class returns an energy whose pressure equals the request, choosing a starting guess within the bracket.

Over: every monotone EOS and pressure.

In `Verif.Props.EosBase`, `Verif.Props.EosBaseRate`.

* `C52_affine_partial` — base-class energy from density and pressure, for an EOS whose pressure at fixed density is an affine function of the energy (every Mie-Gruneisen EOS) with the requested pressure attained between the energy bounds: for every incoming guess not below the lower bound, the returned energy is within `EPS` of the energy with that pressure, or its pressure is within `EPS` of the request.
* `C52_affine_no_guess` — for the overload without a guess the same, with no condition on a guess.
* `C52_guess_ignored_violated` — is violated: the caller's guess is discarded exactly when it is usable. Any two guesses strictly inside the energy bounds give the same result.
* `C52_guess_below_violated` — is violated: a guess below the lower bound is used as it is; here the EOS is `P = e`, `e = T`, the request `P = 0` is met exactly at the lower bound, the guess is `-2` and the answer is `-1`.
* `C52_continuous_partial` — for a continuous, not necessarily affine, pressure and a guess inside the bounds: the result lies between the bounds and inside an interval with an exact solution; `C61_success_meaning` says when it is within `EPS` of it.
* `C52_density_in_bounds` — the base-class density from pressure and temperature always lies within the EOS's density bounds, whether or not the root find converged and whatever density was passed in; and the returned energy is the EOS's energy at that density and temperature.
* `C52_density_success` — when its root find reports success, the pressure at the returned density matches the request to relative accuracy `EPS`, or the density is the centre of an interval narrower than `EPS` over which the pressure crosses the request.
* `C52_min_energy` — the default `MinInternalEnergyFromDensity` is the least energy of the isochore when the energy does not decrease with temperature and does not depend on the lambda: it is a lower bound over all temperatures `T ≥ 0`, and it is attained.
* `C52_min_energy_lambda_violated` — is violated for an EOS whose energy depends on the lambda: the lambda passed by the caller is ignored, and the value returned is above an energy the EOS takes at that density and lambda.
* `C52_accuracy` — base-class energy from density and pressure. Let the requested pressure be taken at an energy `root` strictly between the energies at the lowest and at the highest (`1e20`) temperature, and let the chords of the pressure through `root` have slopes between `m > 0` and `M` over that range. If enough iterations are available (`M ≤ m 2^p`, `(1 - m/(2M))^q (hi - lo) ≤ EPS`, `(p + 2) q < 1000`), the energy returned is within `max EPS (2 EPS / m)` of `root`, whatever energy strictly inside the range the caller passed in.
* `C52_accuracy_no_guess` — the overload without a guess likewise.

### C53 Type-indexed lambda access is by type, never by accident — proved

VariadicIndexer/IndexableTypes: writing through a type then reading through the same type returns the value, other types are unaffected; SafeGet returns false and leaves the output untouched when the type is absent; index positions are the first occurrence in the list.

Over: every type list and every sequence of writes and reads.

In `Verif.Props.TypeLists`.

* `C53_index_first_occurrence` — the slot of a type is its first occurrence in the list, it is in bounds, and it exists exactly for the types in the list; different types have different slots.
* `C53_read_after_writes` — after any history of writes through types, reading through a type of the container returns the last value written through that very type (or the initial content if there was none): writes through other types, or through types absent from the container, have no effect on it. All three ways of reading agree.
* `C53_absent` — a type absent from a type-indexed container, a null pointer, or a container without the needed kind of index: the read reports failure and leaves the output as it was, the write reports failure and leaves the container as it was; the `Must` versions stop instead of returning anything.
* `C53_numeric_index_ignored` — a type-indexed container is never accessed through the numeric index by accident: the result does not depend on the numeric index nor on whether one was given.
* `C53_raw_pointer` — on a raw pointer with a numeric index, a write changes exactly that slot, and reading it gives the written value.
* `C53_raw_pointer_must` — the `Must` versions on a raw pointer, and every mixture of the two kinds of access: a write through either changes exactly that slot for every later read through either.

### C54 Serialisation round-trips an EOS — partial

DeSerialize of the bytes written by Serialize reproduces the EOS: same variant, scalars and table contents, consuming exactly SerializedSizeInBytes bytes and writing nothing else; with shared-memory settings the root fills the block, every process reads its tables (including any the EOS keeps inside helper objects) from the block only.

Over: every EOS contents and size.

In `Verif.Props.Serialize`.

* `C54_serialize_size` — `Serialize` succeeds, writes and returns exactly `SerializedSizeInBytes` bytes, and changes no byte outside the destination.
* `C54_roundtrip` — without shared memory, deserialising a copy of the serialised bytes (at any address, in any other memory) gives back the EOS: same variant, same scalars, same table contents; it consumes exactly the bytes written, writes nothing, and the tables are read from the buffer alone.
* `C54_roundtrip_shared_root` — with a shared block, the root copies the tables into the block and afterwards reads them from there only: whatever happens to the buffer (`m4` agrees with the result on the block), the EOS is unchanged. Nothing outside the block is written.
* `C54_roundtrip_shared_peer` — a process that is not the root of the shared domain writes nothing and reads the tables from the block, provided the block (possibly mapped at another address `data`) already holds what the root put there.
* `C54_helmholtz_shared_violated` — violated for `Helmholtz`: deserialising into shared memory leaves every table in the source buffer (`Helmholtz::SetDynamicMemory` drops the settings), so the shared block is never read and the EOS dangles once the buffer is freed.
* `C54_transformer_stale_violated` — violated for the energy transformer of `SpinerEOSDependsRhoSieTransformable`: its DataBox copies keep the addresses they had in the process that serialised the EOS, for every buffer, every setting. (With the identity transformer they are never read.)
* `C54_tables_aligned` — tables of 8-byte reals stay 8-byte aligned when the buffer (or shared block), `sizeof` and every table size are multiples of 8.

### C55 Bulk serialisation of a list of EOS round-trips — partial

BulkSerializer DeSerialize reproduces every EOS of the container in order, with or without a shared block, each EOS's tables being read from its own bytes at suitably aligned addresses.

Over: every list of EOS.

In `Verif.Props.Serialize`.

* `C55_bulk_size` — the bulk serialiser succeeds, returns exactly its `SerializedSizeInBytes` and writes nothing outside the destination.
* `C55_bulk_shared_root` — with a shared block disjoint from the buffer, the root's bulk deserialisation gives back the whole list in order; every table is then read from the block only and nothing else was written.
* `C55_bulk_shared_peer` — a peer of the shared domain writes nothing and gets the same list from the block the root filled.
* `C55_bulk_private_partial` — partial: without shared memory the bulk round trip is right when no EOS with tables comes after another EOS with tables (`Helmholtz` excepted, which ignores the settings). Missing: two table EOS in one container, which is false, see `C55_bulk_private_violated`.
* `C55_bulk_private_violated` — violated: two table EOS, deserialised without shared memory. The loop adds the first EOS's size to a null pointer, and the second EOS's tables end up at addresses `[dynSize a, dynSize a + dynSize b)`, whatever the buffer.
* `C55_alignment_violated` — violated alignment: in a bulk shared deserialisation the second EOS's tables start `dynSize a` bytes into the block. If the first EOS's phase names make that not a multiple of 8, a table of doubles is placed at a misaligned address, although the block itself is aligned.

### C56 Finalize frees owned memory exactly once — proved

For table EOS, any sequence of loading, copies to device, deserialisations and Finalize calls (by GetOnDevice, serialisation or loading, not plain shallow copies, which must not be finalised as well as their original) frees each owned block at most once, never frees memory it does not own, and leaks nothing once every EOS is finalised.

Over: every sequence of operations.

In `Verif.Props.Ownership`.

* `C56_no_double_free` — for every history of loading, copying to the device, deserialising (from a buffer or a shared block) and finalising, in any order and any number of times, no pointer is freed twice and only blocks this library allocated are freed — never the caller's buffer, never a null pointer.
* `C56_finalize_idempotent` — finalising an EOS twice frees nothing the second time.
* `C56_all_finalized_no_leak` — a history that ends by finalising every EOS has freed every block it ever allocated, each exactly once: nothing leaks.
* `C56_shallow_copy_violated` — the limit of the guarantee: a plain C++ copy of an EOS is shallow. Finalising an object and its copy frees the same blocks twice (for every EOS that owns anything): copies made other than by `GetOnDevice` or serialisation must not be finalised.

Limit: C56_shallow_copy_violated shows why plain copies are excluded.

### C57 Fast logarithm and exponential are inverse, monotone and continuous — partial

The not-quite-transcendental log2 and pow2 are exact mutual inverses, strictly increasing, continuous, and agree with log2 at powers of two. Builds whose tables record the same type of logarithm use the same logarithm up to rounding, whatever their other options, and builds with different types do not.

Over: every positive real, every representable double for the aliased version, every combination of build options.

In `Verif.Props.Math.FastLog`, `Verif.Props.Math.FastLogAliased`, `Verif.Props.Math.FastLogRound`, `Verif.Props.Math.LogBuild`.

* `C57_inverse` — both portable pairs are exact mutual inverses between the positive numbers and the reals.
* `C57_strictly_increasing` — both portable logarithms are strictly increasing on the positive numbers.
* `C57_continuous` — the portable logarithms and exponentials are continuous.
* `C57_pow2_strictly_increasing` — the portable exponentials are strictly increasing.
* `C57_agrees_with_log2` — the portable logarithms agree with the true base-2 logarithm at the powers of two, have the same integer part everywhere, and the linear one never exceeds it.
* `C57_quadratic_is_C1` — the quadratic logarithm (the default order) is continuously differentiable on the positive numbers, also at the powers of two where its pieces meet.
* `C57_base10` — base 10: the wrappers are inverse when their two constants are reciprocal; the literals of the code are reciprocal to 1e-16.
* `C57_aliased_linear_exact` — in exact arithmetic with the exact scale `2^-52`, the aliased linear logarithm of a double is the portable one, and the aliased exponential takes it back to the same double, for every bit pattern.
* `C57_aliased_roundtrip_violated` — violated: the literal `scale_down` has only 15 digits, so it is not `2^-52`; with it, taking the logarithm of a double and exponentiating back loses the value: every double above one comes back smaller, every double below one comes back larger, whatever the rounding of the products.
* `C57_aliased_quadratic_monotone` — the default (aliased, second order) logarithm never decreases from one double to the next, at every bit pattern, including across powers of two.
* `C57_aliased_quadratic_accuracy` — and it is the portable quadratic logarithm of the double to one unit of `2^-52`.
* `C57_aliased_quadratic_not_injective_violated` — violated: in the upper half of every binade the default logarithm has slope below one unit per unit, so it is not injective: in every binade two adjacent doubles have the same logarithm, and no exponential can tell them apart.
* `C57_aliased_quadratic_roundtrip_exact_scale` — nevertheless the round trip of the default pair is within four doubles of the input, for every double and any rounding of the square root, if the scale is exact.
* `C57_aliased_pow2_accuracy` — the default (aliased, second order) exponential is accurate: its bit pattern is less than four from that of the exact exponential of the (truncated) argument, for every argument and any rounding.
* `C57_aliased_quadratic_roundtrip_literal` — the round trip of the default pair with the scale of the code (15 digits, any rounding of it to `double`): the result is within `7 + |lg| 2^-48` doubles of the input, `lg` the logarithm in units of `2^-52`: within 7 doubles near 1, within 16391 for every finite double.
* `C57_log_type_decides` — the type of the logarithm recorded in a table file decides the logarithm. Two builds with the same type have, on one machine, logarithms that differ by less than `5e-12` at every finite double, whatever their other options: the same function where the true logarithm is used, the same up to rounding where the portable and the aliased version are two ways to compute it.
* `C57_log_types_differ` — logarithms of different types are different: at 1.5 those of the two orders and the true one differ pairwise by more than `1e-3`. (The two true ones, single and double precision, are told apart by their types too, although they nearly agree.)

### C58 Hermite interpolation reproduces nodal data — proved

The cubic and quintic Hermite bases reproduce values and derivatives at the nodes, sum to one, and reproduce polynomials of their degree.

Over: every nodal data and every interval.

In `Verif.Props.Hermite`.

* `C58_basis_derivatives` — `dpsi*` and `ddpsi*` are the derivatives of the basis functions, everywhere.
* `C58_partition_of_unity` — partition of unity: the value weights of the two nodes sum to one at every point.
* `C58_reported_derivatives` — in every cell the reported `df_t, df_tt, df_d, df_dt` are the partial derivatives of the reported free energy, for any table.
* `C58_reported_derivatives_cubic` — the same for the bicubic tables (pressure derivative, chemical potential, pair density).
* `C58_nodes` — at each of the four corners of each cell the interpolant and its reported derivatives are the table entries (`a, b ∈ {0, 1}` choose the corner).
* `C58_nodes_cubic` — the same for the bicubic tables.
* `C58_continuous_across_T` — no jump from one cell to the next in temperature: at the shared node the two cells give the same free energy and the same `df_t, df_tt, df_d, df_dt`, at every density.
* `C58_continuous_across_rho` — no jump from one cell to the next in density.
* `C58_continuous_cubic` — no jump between cells for the bicubic tables either, in temperature and in density, for the value and the derivative along the shared edge and across it.
* `C58_reproduces_biquintics` — a free energy that is a polynomial of degree at most five in each variable is reproduced exactly at every state of every cell.
* `C58_reproduces_bicubics` — a bicubic table (pressure derivative, chemical potential, pair density) that holds a polynomial of degree at most three in each variable, with its derivatives, reproduces it exactly at every state of every cell.

### C59 Table transforms are inverse — proved

Going to log space and back returns the input plus EPS at or above minus the offset and is strictly increasing there; the identity, cold-curve shift and temperature-scaling energy transforms of Spiner tables invert exactly for every state; the transforms that divide by the heat capacity invert (at a non-zero shifted energy) exactly when the tabulated dT/dE lies in [1e-8,1e8].

Over: all states.

In `Verif.Props.Table.Transforms`.

* `C59_log_roundtrip` — with an exponential that inverts the logarithm on positive numbers, going to log space and back returns the input plus `EPS`, for every input at or above minus the offset; inputs below are raised to minus the offset.
* `C59_log_monotone` — conversion to log space is strictly increasing above minus the offset, and constant below it.
* `C59_exact_transforms` — no transform, the cold-curve shift and the temperature scaling invert exactly for every state and every table.
* `C59_divide_by_cv_iff` — dividing by the heat capacity inverts, at a non-zero energy, exactly when the tabulated `dT/dE` lies in `[1e-8, 1e8]`: outside, the two separate clamps do not cancel.
* `C59_shift_divide_iff` — the same for the shifted transform, away from the cold curve.
* `C59_all_iff` — and for all three together.
* `C59_clamp_loses_energy_violated` — violated: a table with `dT/dE = 1e-9` (heat capacity `1e9`, erg/g/K units easily reach `1e7`) loses a factor of ten in the round trip.

Limit: C59_clamp_loses_energy_violated is an instance outside the stated range.

### C60 Piecewise grid bounds contain their anchor and nest properly — partial

Table bounds built with an anchor point place a grid point exactly on the anchor, contain the requested range and are ordered; multi-grid bounds are contiguous and monotone.

Over: all bounds and point counts.

In `Verif.Props.Table.Bounds`.

* `C60_log_bounds_ordered` — for any requested range, also with a negative or zero minimum, both log-space bounds are logarithms of positive numbers and stay ordered, for any shrinking factor below one.
* `C60_shrink` — shrinking a log range by a fraction `s` keeps it inside the unshrunk one, takes the same amount off both ends and leaves the fraction `1 - s` of its length.
* `C60_log2lin` — converting a grid coordinate back never leaves the requested linear range, and recovers any point of it.
* `C60_num_points` — the number of points from a density is at least two and at least the density times the length.
* `C60_anchor_on_grid_partial` — what holds: when the anchor is not too close to the upper end, measured by `N (a - min)(max - a) ≥ (max - min)^2`, the adjusted grid has the anchor as one of its points.
* `C60_range_not_contained_violated` — violated: whenever the anchor adjustment acts, the requested upper end is outside the adjusted grid, by between one and two grid spacings.
* `C60_anchor_lost_violated` — violated: with ten points on `[0, 1]` and the anchor at 0.89, the adjusted grid stops before the anchor: the point the table was to resolve is outside it.
* `C60_degenerate_grid_violated` — violated: with three points on `[0, 1]` and the anchor at 0.6, the adjusted grid is a single point, `[0, 0]`.
* `C60_check_interval_violated` — violated: a split or anchor point below a lower bound of zero (log10 of 1) is "adjusted" onto the bound, not into the interval.
* `C60_check_interval_inside` — points already strictly inside are left alone.
* `C60_one_grid_anchor_offset_violated` — violated: in the one-grid constructor the anchor's logarithm is taken without the offset: with a non-positive minimum, the grid point assigned to the anchor is the anchor minus the offset.
* `C60_two_grids_contiguous` — two-grid bounds are contiguous and span the whole (log) range, for every input.
* `C60_three_grids` — three-grid bounds around an anchor strictly inside the range are contiguous, span the range, and their break points are ordered, for any positive diameter, also when the requested fine region sticks out of the range.

### C61 What SUCCESS from regula_falsi means — proved

When regula_falsi reports SUCCESS for a continuous function, the returned point is within xtol of a true root or both working end residuals are within ytol; and when the chords of f through a root r of the interval all rise (or all fall) at least at rate m>0, SUCCESS from any guess means the returned point is within max(xtol, 2 ytol/m) of r, and SUCCESS is certain when the chord slopes are at most M and (log2(M/m)+2) q < 1000 with (1-m/2M)^q (b-a) <= xtol. (Without such a rate SUCCESS can be reported at a point that is no root.)

Over: every function, target, interval, guess and tolerances.

In `Verif.Props.RootFind`, `Verif.Props.RootFindRate`.

* `C61_success_without_convergence_violated` — violated: SUCCESS does not mean converged. For `4x(1-x) = 0` on `[0,1]` with guess `1` both end values are already zero, the loop is not entered, and the midpoint `1/2`, where the function is `1`, is returned as the root — at distance `1/2` from both true roots.
* `C61_success_meaning` — what SUCCESS does mean for a function that is continuous on the searched range: a true root lies in the final interval around the returned midpoint, and that interval is narrower than `2 xtol` unless both (possibly halved) end residuals are within `ytol` (how close the root is then depends on the slope: `C61_chord_accuracy`).
* `C61_chord_accuracy` — let `f` take the target at `r` in `[a,b]`, and let all its chords through `r` rise (`τ = 1`) or fall (`τ = -1`) at least at rate `m > 0` there (`f` need not be monotone). Then SUCCESS means that the root returned is within `xtol` of `r`, or within `2 ytol / m`: the halving of the working end values costs no more than a factor of two. For every guess in the interval and every number of iterations.
* `C61_chord_no_failure` — and it never fails, if moreover the slopes of those chords are at most `M`: with `M ≤ m 2^p` and `(1 - m/(2M))^q (b - a) ≤ xtol`, at most `(p + 2) q` iterations are used, so SUCCESS is certain when that is below 1000.
* `C61_rising_accuracy` — in particular if `f` rises (`τ = 1`) or falls (`τ = -1`) at least at rate `m > 0` between any two points.
* `C61_no_failure` — and if the rate between any two points is between `m` and `M`, it does not fail either.
* `C61_bounded_slope` — in terms of the derivative: a differentiable function with slope in `[m, M]`, `0 < m`, on `[a,b]`, whose end values enclose the target, has exactly one root there, and `regula_falsi` finds it within `max xtol (2 ytol / m)` from any guess in the interval, without failing, if `M ≤ m 2^p`, `(1 - m/(2M))^q (b - a) ≤ xtol` and `(p + 2) q < 1000`.

Limit: C61_success_without_convergence_violated shows why a rate is needed.

### C62 The PTE temperature guess respects every material's limits — proved

When GetTguess reports no problem the returned temperature is at least the caller's guess and at least every material's MinimumTemperature, densities are rhobar/vfrac and each is at least RhoPmin at the returned temperature.

Over: every number of materials, every EOS response and initial guess.

In `Verif.Props.PTEInit`.

* `C62_temperature_guess` — when `GetTguess` stops without complaint, the temperature it returns is at least the guess it started from and every material's minimum temperature, every density is `rhobar/vfrac` for the volume fractions it set, and no density is below the material's density of minimum pressure at the *returned* temperature. (`iterate_t_guess` off; with it on, see `C62_temperature_guess_newton`.)
* `C62_temperature_guess_newton` — with `iterate_t_guess`, for every sequence of Newton proposals (each clipped to `[T, temperature_limit]`, also when a failed pass has pushed the guess beyond that limit): the same guarantee for a starting guess within `temperature_limit`, which is required of it.

### C63 Optional per-material outputs follow their own pointer — partial

In get_sg_eos each optional per-material output array (bulk modulus, dP/de, heat capacity) is written exactly when the caller passes a non-null pointer for that array.

Over: every combination of null and non-null pointers.

In `Verif.Props.CInterface`.

* `C63_optional_partial` — partial: bulk-modulus and Grüneisen outputs are written exactly when their pointer is given.
* `C63_optional_violated` — is violated for the heat capacity: it is written through a null pointer when only the Grüneisen pointer is given, and not written at all when only its own pointer is.

### C64 A cell with one non-negligible material gets that material's answer — partial

In (rho,e) mode, when exactly one material is above the mass-fraction cutoff the returned temperature and pressure are that material's EOS values at the cell's density and energy.

Over: every EOS, cutoff and mass-fraction vector.

In `Verif.Props.CInterface`.

* `C64_pure_cell_partial` — partial: when the only participating material carries all the mass, (rho,e) mode returns that material's EOS temperature and pressure at the cell's density and energy.
* `C64_pure_cell_violated` — is violated when negligible materials are present: an ideal-gas-like EOS (`T = e`, `P = rho T`), mass fractions 9/10 and 1/10, cutoff 1/2. At unit density and energy 1 the material's temperature is 1, but the call reports 81/100, and pressure 81/100.

### C65 Array calls never write past the scratch memory they declare — partial

An array query that takes a scratch pointer uses at most the number of bytes that scratch_size declares for that query, and at most max_scratch_size, for every stack of modifiers.

Over: every stack of modifiers over an EOS with its own scratch needs, every query and length.

In `Verif.Props.Scratch`.

* `C65_declared_suffices_partial` — for every stack of modifiers, every two-input query and every length, the array call touches no scratch memory beyond what `scratch_size` declares for that query.
* `C65_max_suffices` — a scratch area of `max_scratch_size` bytes suffices for every array call, including the minimum energy, for every stack of modifiers and every length.
* `C65_minE_overrun_violated` — is violated for the minimum energy: a shifted or floored EOSPAC table touches twice the declared scratch for `MinInternalEnergyFromDensity`, at every positive length.
* `C65_minE_partial` — without a shift or floor in the stack, the minimum energy stays within its declared scratch.

### C66 ScaledEOS energy queries are consistent with its other queries — partial

Temperature from the energy returned at (rho,T) is T, the minimum energy is the wrapped minimum in scaled units and the heat capacity is the temperature derivative of the energy.

Over: every wrapped EOS satisfying those laws, every nonzero scale, all states.

In `Verif.Props.Modifiers`.

* `C66_scaled_roundtrip_partial` — positive part: if the wrapped energy does not depend on density, temperature from the energy of a scaled EOS recovers the temperature.
* `C66_scaled_roundtrip_violated` — is violated: for a wrapped EOS that round-trips everywhere, `ScaledEOS` does not recover the temperature from the energy it returned at that temperature.
* `C66_scaled_minE_violated` — is violated: the minimum energy of `ScaledEOS` is not the wrapped minimum energy in scaled units: it is off by the factor `s`, so that it can lie above the energy at a positive temperature.
* `C66_scaled_heat_capacity_violated` — is violated: the heat capacity returned is that of the wrapped EOS, not `s` times it, although the energy returned is `s` times the wrapped energy.

### C67 Density and energy from pressure and temperature survive every modifier — partial

If the wrapped EOS's DensityEnergyFromPressureTemperature returns a state with the requested pressure and temperature, so does the modified EOS's, in its own units.

Over: every wrapped EOS, modifier, parameters and state.

In `Verif.Props.ZSplit`.

* `C67_pt_inversion_partial` — the inversion by pressure and temperature survives a shift, a change of units, an energy floor, the relativistic modifier and a Z split.
* `C67_scaled_pressure_partial` — the density returned by a scaled EOS has the requested pressure (its energy, however, need not be the one its own energy query returns, see the violation).
* `C67_scaled_violated` — is violated: a wrapped EOS that inverts exactly, scaled by 2, returns an energy different from the energy query at the returned density and temperature.
* `C67_ramp_violated` — is violated: under a ramp the density returned is the wrapped EOS's, at which the ramped pressure is not the requested one.

### C68 Energy from density and pressure survives every modifier — partial

If the wrapped EOS's InternalEnergyFromDensityPressure returns an energy with the requested pressure, so does the modified EOS's.

Over: every wrapped EOS, modifier, parameters and state.

In `Verif.Props.ZSplit`.

* `C68_p_inversion_partial` — the inversion by density and pressure survives a shift, a change of units, the relativistic modifier, and an energy floor when the returned energy is not below the floor.
* `C68_scaled_violated` — is violated by `ScaledEOS`: it returns the wrapped EOS's energy without scaling it back.
* `C68_zsplit_violated` — is violated by `ZSplit`: the part's pressure is handed to the wrapped EOS as if it were the total pressure.
* `C68_zsplit_factor_partial` — how far off: on any wrapped EOS that inverts exactly, the split EOS's energy has the part share of the requested pressure instead of the requested pressure.

### C69 RelativisticEOS FillEos agrees with the direct queries — partial

The bulk modulus returned by FillEos of a RelativisticEOS equals BulkModulusFromDensityTemperature at the same state.

Over: every wrapped EOS and state.

In `Verif.Props.Modifiers`.

* `C69_relativistic_fill_violated` — is violated: `FillEos` and the reference state of a relativistic EOS return the wrapped (non-relativistic) bulk modulus, not the one the direct query returns at the same state.

### C70 BilinearRampEOS derivative queries match its pressure — partial

The bulk modulus and Gruneisen parameter of a ramped EOS are the isentropic and energy derivatives of the pressure it returns.

Over: every wrapped EOS, ramp and state away from the ramp's corners.

In `Verif.Props.Ramp`.

* `C70_ramp_bulk_on_ramp_partial` — on the two rising segments of the ramp the bulk modulus returned is the isentropic one of the pressure returned.
* `C70_above_ramp_partial` — strictly above the ramp the Gruneisen parameter and the bulk modulus stay the derivatives of the pressure.
* `C70_bulk_below_r0_violated` — is violated below `r0`: whenever the wrapped EOS is in tension there (continuous negative pressure), the ramped pressure is identically zero nearby but the bulk modulus returned is `rho*a/r0 > 0`, for every accepted ramp.
* `C70_gruneisen_on_ramp_violated` — is violated on the ramp: the pressure does not depend on the energy there, but the Gruneisen parameter returned is that of the wrapped EOS.

### C71 Vectorised index types address distinct slots — partial

Indexing a type-indexed container with MassFractions(m) and MassFractions(n), m different from n, addresses different entries: writing one leaves the other unchanged.

Over: every container type list and every pair of indices.

In `Verif.Props.TypeLists`.

* `C71_objects_by_type_partial` — two index objects address different slots exactly when their *types* differ.
* `C71_vectorised_alias_violated` — is violated: index objects of one vectorised type (`MassFractions(0)`, `MassFractions(1)`, ...) all address the same slot of a `VariadicIndexer`, whatever the list and the numbers.

### C72 Finite-difference pressure-temperature derivatives are true derivatives at a nearby state — partial

When an EOS has no analytic pressure-temperature derivatives, each of dRho/dP|T, dE/dP|T, dRho/dT|P and dE/dT|P returned by the base-class default equals the true partial derivative of the EOS's own density-energy-from-pressure-temperature inversion at a state no further than one step (relative 1e-6 or EPS) away, and does not depend on anything but the state passed in.

Over: every differentiable inversion, every pressure and temperature of either sign, every lambda.

In `Verif.Props.EosBase`.

* `C72_finite_differences` — with an exact inversion `rho(P,T)`, `e(P,T)` that is differentiable between the perturbed and the given state, each of the four finite-difference derivatives is the true partial derivative at an intermediate state no further away than a relative `δ` (or `EPS` when that is larger).
* `C72_exact_on_affine` — for inversions that are affine in pressure and temperature the finite differences are exact.
* `C72_uninitialised_guess_violated` — is violated in the base class: the incoming density of the first inversion is uninitialised memory, and when the inversion uses it as a guess the derivative depends on it.

### C73 Gibbs free energy is consistent with entropy and pressure — proved

The Gibbs free energy at (density, temperature) and at (density, energy) agree along e(rho,T), and for an EOS whose entropy is consistent with its heat capacity and pressure, dG = -S dT + dP/rho.

Over: every EOS whose entropy satisfies the first law, every state.

In `Verif.Props.EosBase`.

* `C73_gibbs_twin` — the two Gibbs queries agree along `e = e(rho,T)`.
* `C73_gibbs_first_law` — `G` is `e + P/rho - T S` and satisfies `dG = -S dT + dP/rho`: for every EOS whose energy, pressure, heat capacity and entropy satisfy the first law, along a temperature change at constant density `dG/dT = -S + (dP/dT)/rho`, and along a density change at constant temperature `dG/drho = (dP/drho)/rho`.

### C74 Reference state is consistent with the direct queries — partial

The values ValuesAtReferenceState reports (energy, pressure, heat capacity, bulk modulus, dP/dE) equal the corresponding queries at the density and temperature it reports, and dV/dT is the thermal expansion at that state.

Over: every parameter set.

In `Verif.Props.Eos.Carnahan`, `Verif.Props.Eos.DavisProd`, `Verif.Props.Eos.DavisReac`, `Verif.Props.Eos.Gruneisen`, `Verif.Props.Eos.Ideal`, `Verif.Props.Eos.Jwl`, `Verif.Props.Eos.MGUsup`, `Verif.Props.Eos.Misc`, `Verif.Props.Eos.PowerMG`, `Verif.Props.Eos.RefExpansion`, `Verif.Props.Eos.Stiff`, `Verif.Props.Eos.Vinet`.

* `C74_carnahan_bmod_violated` — is violated: the reference bulk modulus of CarnahanStarling lacks a factor `gm1`; times `gm1` it is the direct query at the reference density and temperature.
* `C74_carnahan_reference_partial` — the other reference values of CarnahanStarling are the direct queries, the pressure whenever the constructor's density is the density with pressure `P0` and temperature `T0`.
* `C74_davis_products_reference` — the reference state is a state of the EOS (its temperature is that of its energy, twice the isentrope's).
* `C74_davis_products_reference_energy` — the reference state's density is that at the critical volume and its energy twice that on the isentrope there, so its temperature exceeds the isentrope's by the isentrope's energy over the heat capacity.
* `C74_davis_reactants_reference` — the reference state is a state of the EOS.
* `C74_gruneisen_reference_partial` — partial: of the Gruneisen reference state, pressure, energy, heat capacity and bulk modulus are the direct queries at the reported density and temperature.
* `C74_gruneisen_dpde_violated` — is violated: the reported `dp/de` is the reference pressure divided by zero. Whatever that division produces, it is the same for two materials that differ only in their Gruneisen coefficient, whose true `dp/de` at the reference state are different: it cannot be right for both.
* `C74_ideal_reference` — the IdealGas reference state is a state of the EOS, and its `dv/dT` is the thermal expansion of the specific volume at the reference pressure.
* `C74_jwl_reference_partial` — partial: the JWL reference state: energy, heat capacity, bulk modulus and `dp/de` are the direct queries at the reported density and temperature.
* `C74_jwl_pressure_violated` — is violated for JWL: the reported pressure (atmospheric) is not the pressure at the reported density and temperature, for any nonnegative coefficients and positive heat capacity that make the latter exceed it; the error is the whole detonation-product pressure.
* `C74_mgusup_reference` — partial: the reference state is a state of the EOS.
* `C74_mgusup_dvdt_violated` — is violated: the reported `dV/dT` is negative whenever `T0`, `G0` and `rho0` are positive, although the material expands on heating: with a positive isothermal bulk modulus its thermal expansion coefficient is positive.
* `C74_sap_reference_violated` — is violated: the reference state reports zero pressure and bulk modulus at zero energy, where the EOS has pressure `a0` and (for unit factor) bulk modulus `a1`.
* `C74_electrons_pressure_violated` — is violated: the reported reference pressure (one atmosphere) does not depend on the ionisation while the pressure at the reported density and temperature does, so it is wrong for all but one ionisation.
* `C74_electrons_reference_partial` — partial: the remaining reference values are the direct queries.
* `C74_powermg_reference` — partial: the reference state is a state of the EOS.
* `C74_powermg_dvdt_violated` — is violated: the reported `dV/dT` is negative whenever `T0`, `G0` and `rho0` are positive, although the material expands on heating whenever its isothermal bulk modulus `K0 - G0^2 Cv rho0 T0` is positive.
* `C74_electrons_expansion` — the ideal electrons report the thermal expansion at the reference state.
* `C74_expansion_formula` — JWL, both Davis EOS and Gruneisen report for `dV/dT` the Gruneisen parameter times density times heat capacity over the bulk modulus (all at the reference state).
* `C74_expansion_formula_iff` — That formula is the thermal expansion exactly when the bulk modulus reported is the density times the isothermal one, for an EOS whose pressure queries agree and whose Gruneisen parameter and heat capacity are what they say: it has one factor of density too many, and the isentropic modulus for the isothermal one.
* `C74_jwl_expansion_violated` — is violated for JWL: already for pure ideal-gas products (`A = B = 0`) the `dV/dT` reported is the thermal expansion only for the accidental density `rho0 = w + 1`.
* `C74_stiff_reference` — the StiffGas reference state is a state of the EOS.
* `C74_noble_reference` — the NobleAbel reference state is a state of the EOS.
* `C74_dvdt_unset_violated` — is violated by StiffGas and NobleAbel: the reference `dv/dT` is never written, the caller gets back whatever was in the variable.
* `C74_vinet_reference` — the reference state is a state of the EOS, and the reported `dV/dT` is the derivative of the specific volume with respect to temperature at constant pressure, `-(dP/dT) / (dP/dV)`.

### C75 Degenerate parameters reduce to the ideal gas — proved

StiffGas with zero stiffening and offset, and NobleAbel and CarnahanStarling with zero covolume and offset, answer every query as IdealGas with the same Gruneisen parameter and heat capacity (the entropy for the same reference state, and no entropy offset).

Over: every state and every heat capacity and Gruneisen parameter.

In `Verif.Props.Eos.Carnahan`.

* `C75_ideal_limits` — StiffGas with `Pinf = 0`, `q = 0`, and NobleAbel and CarnahanStarling with no covolume and `q = 0` give the IdealGas energy, pressure, temperature, heat capacity, bulk modulus and Gruneisen parameter, at every positive density and every state, negative arguments included.
* `C75_ideal_limits_entropy` — the entropies reduce as well: with no entropy offset and the IdealGas entropy measured from the same reference state (temperature `T0`, pressure `P0`), all four EOS give the same entropy at every positive density and temperature or energy.

### C76 The automatically chosen maximum density avoids the singular compression — partial

A Gruneisen EOS constructed without a maximum density gets one below the smallest compression in (0,1) at which its reference pressure diverges, or none exactly when there is no such compression; so the reference pressure's denominator is positive at every density the EOS uses.

Over: every linear, quadratic and cubic shock-velocity fit.

In `Verif.Props.Eos.GruneisenCubic`, `Verif.Props.Eos.GruneisenDouble`, `Verif.Props.Eos.GruneisenRho`.

* `C76_cubic_root_simple` — for a cubic fit with a sign change over the search interval, the first singular compression is a simple zero, so that there is such a rate.
* `C76_cubic_root` — the compression returned for a cubic fit, for every position of the fixed guess: when the constructor does not abort, it lies strictly in `(0,1)`, and either it is at most `0.001` (the guess, when the fit is singular before that), or it is within `max(100 ε, 20 ε / m)` of the first singular compression, `m` being any rate at which the denominator falls through its zero.
* `C76_cubic_no_singularity_partial` — partial: consequently the denominator is positive at every density from the reference density up to `0.99` times the automatic maximum (at every density at all when none is set), for every cubic fit for which the constructor does not abort and whose denominator falls through its first zero `x` steeply enough for the root finder's tolerance to be covered by the safety factor: `max(100 ε, 20 ε / m) ≤ (1 - x) / 100`. Not covered: the fits for which it is not (a nearly double zero, for which the claim is false: `C76_double_zero_violated`; or one within `10^4 ε` of compression one).
* `C76_cubic_usual` — for the usual cubic fits, with nonnegative coefficients and `s1 ≥ 1/5`, all that remains is that the singular compression is not within `10^4 ε` of one.
* `C76_double_zero_violated` — violated: the exception in `C76_cubic_no_singularity_partial` is real. With the code's own tolerance there is a cubic fit, singular at compression `0.3` and with a local maximum of the denominator just below zero at `0.701`, for which the constructor reports success, sets a maximum density above compression `0.35`, and so accepts densities well below `0.99` times that maximum at which the reference pressure is singular or its denominator negative.
* `C76_eta_root_quadratic` — with a linear or quadratic shock velocity fit (the higher coefficients zero and the quadratic one, when present, above rounding) the compression the code computes is exactly the first singular one, and it reports "no limit" exactly when there is none.
* `C76_no_singularity_below_maximum` — consequently the reference pressure's denominator is positive at every density from the reference density up to the automatically determined maximum (the `0.99` safety factor only lowers it), or at every density at all when there is no maximum.
* `C76_cubic_bracket` — the interval searched for a cubic fit. The denominator is positive at its left end; if it changes sign over the interval, the interval contains exactly one zero and that is the first singular compression; if it is positive at the right end there is no singular compression in `(0,1)`; if it vanishes there, no smaller one exists.

### C77 Reported Helmholtz derivatives are derivatives and obey the first law — proved

In the Helmholtz EOS each component (radiation, ions, degenerate electrons) reports pressure, energy and entropy with derivatives in density, temperature, mean atomic mass and charge. Those derivatives are the true derivatives of the reported values, and T dS/dT = cv, de/drho = (P - T dP/dT)/rho^2, dS/drho = -(dP/dT)/rho^2, inside every table cell for any table contents; the density and composition derivatives of the electron pressure, which come from a second table, are right wherever that table holds D^2 F_DD + 2 D F_D of the free-energy table.

Over: every state, composition and table.

In `Verif.Props.Eos.Helmholtz`, `Verif.Props.Eos.HelmholtzEos`.

* `C77_radiation` — every derivative reported for radiation is the derivative of the reported quantity, and the radiation arrays obey the first law and the Maxwell relation.
* `C77_ions` — ion pressure and energy: every reported derivative is the derivative; and the reported arrays satisfy the first law and the Maxwell relation among themselves.
* `C77_electrons` — inside every cell of every table, the derivatives reported for the electron energy, entropy and chemical potential are their derivatives, in all four variables; so is the temperature derivative of the pressure; and the electron arrays obey the first law and the Maxwell relation.
* `C77_electron_pressure` — the density and composition derivatives reported for the electron pressure come from a second table (`dpdf`); they are the derivatives of the reported pressure whenever that table agrees with the free-energy table at the state, i.e. holds `D^2 F_DD + 2 D F_D`, and the floor at zero is not active.

### C78 Helmholtz ion entropy is consistent with the ion heat capacity — partial

The temperature derivative of the ion entropy returned by the Helmholtz EOS is the ion heat capacity over the temperature, and its density and composition derivatives are those reported.

Over: every density, temperature and composition.

In `Verif.Props.Eos.Helmholtz`, `Verif.Props.Eos.HelmholtzOptions`.

* `C78_ion_entropy_density_composition_partial` — what holds: the density and composition derivatives reported for the ion entropy are its derivatives.
* `C78_ion_entropy_T_iff` — the temperature derivative of the reported ion entropy is the reported one, hence `cv/T`, exactly when the constant `LSWOT15` multiplying `ln T` is `3/2`.
* `C78_ion_entropy_T_violated` — violated: with the constants of the code (`LSWOT15 = 46.68…`, which the comment describes as an additive constant), the entropy reported by the ion component violates `T dS/dT = cv` at every state.
* `C78_ionized_entropy_violated` — does not hold for the fully ionised ideal gas either: the density derivative reported for its entropy is the derivative of the entropy exactly where the logarithm of the particle mass factor happens to equal the number of particles `rho N_A`; and the temperature derivative exactly when `LSWOT15` is `3/2`, which it is not.

### C79 Coulomb corrections report true derivatives — partial

The derivatives reported with the Coulomb corrections of the Helmholtz EOS (plasma parameter, energy, pressure, entropy, cut-off gain) are derivatives of the reported corrections, and both the strong- and the weak-coupling fit are used in their own regime.

Over: every density, temperature and composition.

In `Verif.Props.Eos.Helmholtz`, `Verif.Props.Eos.HelmholtzMore`.

* `C79_weak_branch_unreachable` — the plasma coupling parameter is positive at every physical state, so the branch of the Coulomb correction written for the other case is never taken.
* `C79_gain_derivative_violated` — violated: the temperature derivative of the gain used in the reported heat capacity of the Coulomb correction is not the derivative of the gain: at `T = 10^4.5` the gain is stationary in temperature, but the reported derivative is not zero at any density below 0.1 g/cc.
* `C79_plasma_parameter` — the plasma coupling parameter's reported derivatives are its derivatives.
* `C79_fit_energy_pressure` — before the gain is applied, the derivatives reported for the Coulomb energy and pressure are their derivatives.
* `C79_fit_entropy_iff` — the density derivative reported for the Coulomb entropy is its derivative exactly when the plasma parameter is one (or the bracket of the fit vanishes): the code multiplies by it where it should divide.
* `C79_fit_entropy_violated` — violated: with the constants of the code, at every density and composition there is a temperature (the one at which the plasma parameter is 16) where the density derivative reported for the Coulomb entropy is not its derivative; and the branch evaluated there is the one the code takes.
* `C79_coulomb_heat_capacity_violated` — violated: the heat capacity reported by the Coulomb correction is not the temperature derivative of the energy it reports: at `T = 10^4.5`, any density below 0.1 g/cc, any mean atomic mass, and the charge that makes the plasma parameter one, they differ.
* `C79_gain_chain_rule` — multiplying a quantity by the gain keeps reported derivatives derivatives, provided the gain's own derivatives are right: the chain rule in the code is correct.
* `C79_gain_derivatives_swapped` — what the code computes for the gain's derivatives are the right ones with the roles of density and temperature exchanged: the true temperature derivative is the reported density derivative times `rho/T`, and conversely (with `LN10 = ln 10`).
* `C79_correction_derivatives_partial` — what holds of the whole correction: the composition derivatives reported for the Coulomb energy and pressure are derivatives, at every state; and the reported density and temperature derivatives are off by exactly the fit times the error in the gain's derivative.

### C80 Helmholtz temperature inversion solves for the requested energy — partial

TemperatureFromDensityInternalEnergy returns a temperature whose energy is the requested one, whatever the caller's lambda already holds in the log-temperature slot.

Over: every density, energy, option set and lambda contents.

In `Verif.Props.Eos.HelmholtzEos`, `Verif.Props.Eos.HelmholtzInvert`, `Verif.Props.Eos.HelmholtzMore`.

* `C80_inversion_returns_cached_value_violated` — violated: when the caller's lambda has a log-temperature entry, the temperature returned by `TemperatureFromDensityInternalEnergy` is the entry that was already there: the result of the root find is overwritten, and the answer does not depend on the energy.
* `C80_roundtrip_is_vacuous_violated` — this is why the round trip of the unit test passes: after the energy query at `T` has stored `T` in the lambda, the inversion of any energy whatsoever returns `T`.
* `C80_without_cache_partial` — what holds: with a lambda that has no log-temperature entry, when Newton-Raphson converges the returned temperature is inside the table and its energy matches the requested one to 1e-10.
* `C80_regula_falsi` — regula falsi: let the energy at the given density and composition rise with temperature, between any two temperatures of the table's range, at least at the rate `c` and at most at the rate `C`, and let the requested energy be that at a temperature `T` of the range. If Newton-Raphson is switched off (and some contribution makes a root find necessary), then `TemperatureFromDensityInternalEnergy` returns `T` within `10^-14` or `2 10^-14 / c`, and a temperature of the range, whatever the uninitialised first guess, provided the lambda caches nothing, `10^8` is in the range, and the rates allow the root finder to finish within its 1000 iterations.
* `C80_coulomb_flag_only` — with the Coulomb flag alone (which has no effect without degenerate electrons, but makes the code search instead of using the ideal-gas formula), the energy rises at a constant rate and the search succeeds for every table range up to `10^13`.
* `C80_ideal` — with radiation, degeneracy and Coulomb corrections off, `TemperatureFromDensityInternalEnergy` inverts the energy exactly, ionised or not, whenever the temperature lies in the range of the table (and the lambda caches nothing).

### C81 The combined Helmholtz EOS answers are mutually consistent — partial

The energy-only evaluation used in the root find equals the full evaluation; the bulk modulus is rho dP/drho + T (dP/dT)^2/(rho cv), the Gruneisen parameter (dP/dT)/(rho cv), the heat capacity the temperature derivative of the returned energy, and de/drho = (P - T dP/dT)/rho^2.

Over: every state, option set and table.

In `Verif.Props.Eos.HelmholtzEos`, `Verif.Props.Eos.HelmholtzMore`, `Verif.Props.Eos.HelmholtzOptions`.

* `C81_only_e_agrees` — The energy-only evaluation used by the root finders agrees with the full evaluation.
* `C81_bulk_modulus_and_gruneisen` — the reported bulk modulus is `rho dP/drho|_T + T (dP/dT)^2 / (rho cv)` floored at `EPS`, and the Grüneisen parameter is `(dP/dT)/(rho cv)`, in terms of the reported derivatives, for every combination of options.
* `C81_heat_capacity_partial` — without Coulomb corrections, with degenerate electrons, radiation on or off: the reported energy derivatives are the derivatives of `InternalEnergyFromDensityTemperature` in density, temperature and composition; in particular the reported heat capacity is `de/dT` at constant density.
* `C81_first_law_partial` — in the same configuration the energy and pressure satisfy the first law `de/drho|_T = (P - T dP/dT)/rho^2`, with `dP/dT` the true temperature derivative of the pressure.
* `C81_coulomb_virial` — switching the Coulomb corrections on changes the pressure by a third of the density times the change of the energy (the virial relation of the correction), at every state, composition and table.
* `C81_radiation_adds` — switching radiation on adds `A T^4` to the pressure, `3 A T^4 / rho` to the energy and `4 A T^3 / rho` to the entropy (`A` is a third of the radiation constant), whatever the other contributions.
* `C81_options_partial` — for every combination of the option switches other than Coulomb corrections on top of degenerate electrons: the reported heat capacity is the temperature derivative of the reported energy, and `de/drho|_T = (P - T dP/dT)/rho^2`. (With degenerate electrons the state must be inside a table cell.)
* `C81_heat_capacity_violated` — is violated with Coulomb corrections on top of degenerate electrons: for every table and cell, at `T = 10^4.5` and density below `0.1` with the mean charge that makes the plasma parameter one, the reported energy has a temperature derivative and the reported heat capacity is not it.

### C82 The density of minimum pressure brackets the pressure inversion of table EOS — proved

For table EOS the minimum pressure the EOS reports bounds every table pressure from below; without the vapour-dome option the stored density at each temperature is the lowest density of minimal pressure, or zero when no pressure is non-positive; with it the stored density does not increase with temperature and no two-point pressure slope above it is below the threshold.

Over: every table, size and threshold.

In `Verif.Props.Table.SpinerRhoT`, `Verif.Props.Table.Transforms`.

* `C82_rhot_rhoPmin` — the density of least pressure the EOS reports (`RhoPmin`; `at0` is the first stored entry) does not increase with temperature over all temperatures, and is non-negative, if the stored densities do not (`C82_vapour_dome`).
* `C82_pmin_is_lower_bound` — the minimum pressure returned bounds every table entry from below, at every density and temperature, in both modes; without the vapour-dome option it is never positive.
* `C82_density_of_minimum` — without the vapour-dome option, at each temperature the stored density is the lowest density at which the pressure is minimal when that pressure is not positive, and zero when all pressures are positive.
* `C82_vapour_dome` — with the vapour-dome option, the stored density never increases with temperature; and above it the pressure has no two-point slope below the threshold, at every density of the grid beyond.

### C83 Every PTE trial step leaves each material in a state of its own EOS — proved

After TestUpdate of any of the five PTE solvers (with exact division), each material's density times volume fraction is its mass, and its specific energy, pressure and energy density are those its own EOS gives at the new temperature (for PT: at the new pressure and temperature; for RhoU: at the new density and energy).

Over: For every equation of state, number of materials, step, line-search factor and prior state..

In `Verif.Props.PTETrial`.

* `C83_rhoT` — RhoT: after every trial step, each material whose volume fraction is not zero is in the state its EOS gives at the new common temperature.
* `C83_fixedT` — FixedT: the same at the fixed temperature, with the volume fractions moved along `dx`.
* `C83_fixedP` — FixedP: the same at the new common temperature.
* `C83_rhoU` — RhoU: each material's energy is moved along `dx`, and its temperature and pressure are those its EOS gives at the new density and energy (the temperature is per material in this solver).
* `C83_pt` — PT: density and energy are those the EOS gives at the new pressure and temperature, the volume fraction keeps the material's mass.

### C84 Modifiers report mean atomic mass and number consistently with the wrapped EOS — proved

Through every modifier MeanAtomicNumber is the wrapped EOS's at the corresponding state, and MeanAtomicMass is such that the number density of atoms rho/MeanAtomicMass is that of the wrapped state (ScaledEOS divides by the scale; the others pass it on, converting the state's units).

Over: For every wrapped EOS, scale, unit system, density, temperature and lambda..

In `Verif.Props.ModifierAtoms`.

* `C84_scaled` — `ScaledEOS`: the number density of atoms, `rho / MeanAtomicMass`, is that of the wrapped EOS at the wrapped density, and so is the mean atomic number.
* `C84_unitSystem` — `UnitSystem`: atomic mass and number have no units here; the state they are asked at is converted.
* `C84_passed_on` — `ShiftedEOS`, `FlooredEnergy`, `BilinearRampEOS`, `RelativisticEOS` and `ZSplit` hand the question on unchanged.

### C85 Spiner (density, temperature) tables invert the energy — partial

For SpinerEOSDependsRhoT, TemperatureFromDensityInternalEnergy followed by a query at that temperature gives the energy, pressure, heat capacity and Gruneisen parameter of the energy query: exactly (up to the shift of the log conversion) above the table's top isotherm; on the table the temperature is within the root-find threshold of one that has exactly the energy asked for; at or below the cold curve the table's lowest temperature is returned and the cold-curve values are reported.

Over: For every table, density, energy and lambda contents..

In `Verif.Props.Table.Converge`, `Verif.Props.Table.InversionRate`, `Verif.Props.Table.SpinerRhoT`.

* `C85_round_trip` — the round trip. If on an isochore the energy rises with the log temperature at least at rate `m`, and the state with log temperature `x` counts as on the table, then the temperature found from its energy, with success reported, has a log within `max thr (2 thr / m)` of `x`, whatever the lambda cache holds.
* `C85_succeeds` — and the inversion does succeed, if moreover the energy rises at most at rate `M` and the iterations suffice for the ratio `M / m`.
* `C85_rising` — on an isochore that rises through the requested energy at log temperature `r` with slopes between `m` and `M`, a successful inversion returns a log temperature within `max(thr, 2 thr / m)` of `r`, whatever the lambda cache holds; and success is certain if the bound on the number of iterations is below 1000.
* `C85_top` — for an energy at or above the top isotherm, the temperature is the ideal-gas extrapolation, and asking for the energy, pressure, heat capacity at that temperature gives the energy, pressure, heat capacity back, up to the shift of the log conversion (exactly, if there is none). Whatever the lambda cache holds.
* `C85_top_reverse` — the reverse direction above the table: energy at `T`, then the temperature of that energy, gives `T` back up to the log shift.
* `C85_cold` — an energy at or below the cold curve gives the table's lowest temperature, the cold-curve pressure and heat capacity, whatever the energy and the lambda.
* `C85_cold_back` — if the lowest log temperature is positive and the log conversion returns it within the soft threshold, the energy at the temperature reported for a cold-curve state is the minimum energy at that density.
* `C85_negative_log_temperature_violated` — fails on the cold curve when the lowest log temperature is negative: `(1 + SOFT_THRESH) * lTMin` is then below `lTMin`, so the state reported for the cold curve counts as on the table when it is looked up by temperature, and the pressure at that temperature is not the one reported for the energy.
* `C85_table_partial` — missing: convergence when the root finder stops on its residuals, and energies that no temperature of the table has, see the next theorem: on the table, for an isochore that is continuous in the log temperature and takes the energy between its ends, a successful inversion returns a temperature of the table within the threshold of one with exactly that energy, whatever the lambda cache holds; if moreover the isochore is Lipschitz with constant `L`, its energy there is within `L` thresholds of the one asked for.
* `C85_below_lowest_isotherm_violated` — fail for an energy between the cold curve and the lowest isotherm: the state counts as on the table, the inversion fails, and the temperature returned is the one cached in `lambda`, so it depends on the history of calls.

### C86 Spiner (density, temperature) tables invert the pressure — partial

For SpinerEOSDependsRhoT, DensityEnergyFromPressureTemperature returns a density whose log is within the root-find threshold of one with exactly the requested pressure at that temperature, for temperatures below, on and above the table.

Over: For every table, pressure, temperature and lambda contents..

In `Verif.Props.Table.Converge`, `Verif.Props.Table.InversionRate`, `Verif.Props.Table.SpinerRhoT`.

* `C86_round_trip` — the density from pressure and temperature. On the table (and, with the cold curve, below it), for an isotherm along which the pressure rises with the log density at least at rate `m` above the density of least pressure: the density found, with success reported, for the pressure at log density `x` has a log within `max thr (2 thr / m)` of `x`.
* `C86_rising` — likewise for the density at a pressure and temperature (the isotherm, or the cold curve below the table).
* `C86_table_partial` — missing: as for C85, and temperatures above the table, see below: on the table, for an isotherm continuous in the log density that takes the pressure between its ends, a successful inversion returns a density of the table whose log is within the threshold of one with exactly that pressure; below the table the same holds on the cold curve.
* `C86_above_table_violated` — fails above the table: the function inverted there multiplies the logs of temperature and density instead of the temperature and the density. For an ideal gas with `P = rho T` the density found for `P = 4`, `T = 100` is 100, with success reported, and the pressure there is 10000.
* `C86_unreachable_pressure_violated` — a pressure the isotherm does not reach gives back the density cached in `lambda`, without any sign of failure in the result.

### C87 Spiner (density, temperature) FillEos agrees with the single queries — partial

For SpinerEOSDependsRhoT, each quantity FillEos is asked for is what the corresponding single query returns for the given inputs (density and temperature; density and energy; pressure and temperature; density and pressure), and inputs are not modified.

Over: For every table, state, lambda contents and set of requested outputs..

In `Verif.Props.Table.SpinerRhoT`.

* `C87_by_temperature` — with density and temperature as inputs, every requested output is the direct query, inputs are kept. Any lambda.
* `C87_by_energy` — with density and energy as inputs the temperature is the direct query; when both ways of locating the state agree that it is on the table, pressure and heat capacity are the direct queries and the bulk modulus is the direct query floored at `robust::EPS`.
* `C87_by_energy_top` — above the table, with density and energy as inputs, the same up to the log shift of the temperature.
* `C87_by_pressure_temperature` — with pressure and temperature as inputs, density is that of `DensityEnergyFromPressureTemperature`; so is the energy, if the log of the density is recovered exactly.
* `C87_cold_violated` — fails on the cold curve when the lowest log temperature is negative: `FillEos` from density and energy gives another pressure than the direct query.
* `C87_pressure_above_table_violated` — fails for density and pressure above the table: the temperature returned is the table's maximum, and the pressure there is not the one given.

### C88 Spiner (density, temperature) heat capacity and bulk modulus are positive — partial

For SpinerEOSDependsRhoT, specific heats and bulk moduli returned are at least robust::EPS, and every bulk modulus stored on loading is at least robust::EPS and is the isentropic bulk modulus of the tabulated derivatives where these are positive.

Over: For every table (also with negative or zero derivatives), state and lambda..

In `Verif.Props.Table.SpinerRhoSie`, `Verif.Props.Table.SpinerRhoT`.

* `C88_rhosie_fixed_table` — Every entry of the bulk modulus tables is at least `robust::EPS` after loading, and is the isentropic bulk modulus of the stored derivatives where that is positive (C88 for this EOS).
* `C88_rhosie_heat_capacity_violated` — fails for the heat capacity of this EOS: there is no floor.
* `C88_floor` — heat capacities and the bulk modulus by temperature are at least `robust::EPS`, for every table, state and lambda.
* `C88_bulk_by_energy_violated` — fails for the bulk modulus by energy, which has no floor: above the table at zero density it is zero, while the same state by temperature gives `robust::EPS`.
* `C88_fixed_table` — every entry of the bulk modulus table is at least `robust::EPS` after loading, and equals `rho dP/drho|_e + (P/rho) dP/de|_rho`, the isentropic bulk modulus, wherever density and `dP/de` are positive and that value is not below `robust::EPS`.
* `C88_gruneisen` — the Grüneisen parameter times the density is the tabulated slope of the pressure in the energy: on the table that of the table, at the cold curve that of the cold curve (absolute values), by temperature and by energy; above the table it is the slope of the pressure returned for the energy.

### C89 Spiner cold critical temperature — partial

The temperature below which the cold curve is used at a density is at least the table's lowest temperature, and is where the isochore's energy last crosses the cold energy upwards.

Over: For every table, density and number of grid points..

In `Verif.Props.Table.SpinerRhoT`.

* `C89_on_table` — the cold critical temperature is never below the table.
* `C89_no_crossing` — without an upward crossing of the cold curve it is the lowest temperature.
* `C89_single_crossing_violated` — fails in the ordinary case: when the isochore crosses the cold curve exactly once, upwards (the energy increases with temperature and the cold energy lies on the grid), the crossing is ignored and the lowest temperature is returned, wherever the crossing is.

### C90 Spiner (density, temperature) extrapolation continues the table — partial

At the top isotherm the ideal-gas extrapolation of SpinerEOSDependsRhoT takes the same energy and pressure as the table.

Over: For every table and density..

In `Verif.Props.Table.SpinerRhoT`.

* `C90_energy_continues` — the ideal-gas extrapolation continues the energy of the top isotherm.
* `C90_pressure_continues_iff` — it continues the pressure of the top isotherm exactly when that isotherm satisfies `P = gm1 rho e`.
* `C90_pressure_jump_violated` — fails in general: a material whose top isotherm has an energy offset (here `e = T - 1`, `P = rho T`) has a pressure jump at the top of the table.

### C91 The lambda cache of Spiner (density, temperature) tables does not change answers — proved

What is in the caller's lambda does not change any answer by temperature nor any answer by energy off the table; on the table, where the isochore rises at least at rate m, two lambdas change the (log) temperature by at most 2 max(thr, 2 thr/m) with thr the root-find threshold.

Over: For every table, state and pair of lambda contents, i.e. every history of earlier calls..

In `Verif.Props.Table.Cached`, `Verif.Props.Table.Converge`, `Verif.Props.Table.SpinerRhoT`.

* `C91_cached_temperature` — with the log temperature of the state in the cache (where any query by temperature leaves it, `eos_spiner_rho_temp.hpp:1131-1132`), the temperature of its energy is found without error, whatever the shape of the table: the energy need not even rise with the temperature. Required are a state that counts as on the table, and one distinguishable from the lowest temperature by the tolerance of the search.
* `C91_cached_density` — with the log density of the state in the cache, the density of its pressure at its temperature is found without error, on the table whatever the shape of the isotherm.
* `C91_on_table` — on the table, for an isochore that rises at least at rate `m`, the answers from two different lambda caches agree within `2 max thr (2 thr / m)`, with no assumption on how the root finder stopped.
* `C91_off_table` — queries by temperature do not depend on what is in `lambda`; neither do queries by energy for states off the table.
* `C91_on_table_converged` — on the table, for an isochore strictly increasing in the log temperature, two converged inversions with different caches agree within twice the threshold.

### C92 Spiner (density, energy) FillEos agrees with the single queries — partial

For SpinerEOSDependsRhoSie, each quantity FillEos is asked for is what the corresponding single query returns for the given inputs, and inputs are not modified.

Over: For every table, energy transform, state, lambda contents and set of requested outputs..

In `Verif.Props.Table.SpinerRhoSie`.

* `C92_by_energy` — when the temperature is asked for, every output asked for is the single query at the given density and energy, with the energy transform the EOS uses, and inputs are kept. Any lambda.
* `C92_by_temperature` — when the energy is asked for, every output asked for is the single query at the given density and temperature.
* `C92_by_pressure_temperature` — density and energy from pressure and temperature are those of `DensityEnergyFromPressureTemperature`; heat capacity and bulk modulus are the single queries there, if the log of the density is recovered exactly.
* `C92_pressure_alone_violated` — fails when neither temperature nor energy is asked for: with density and temperature (or energy) given and the pressure asked for, the pressure passed in comes back. The same holds for heat capacity and bulk modulus asked for together with the density.

### C93 The energy transform of Spiner (density, energy) tables is applied to every query by energy — partial

For SpinerEOSDependsRhoSieTransformable every query by energy (temperature, pressure, heat capacity, bulk modulus, Gruneisen parameter, mass fractions) evaluates the tables at the transformed energy, so that mass fractions by energy are those at the temperature of that energy.

Over: For every table, transform, density and energy..

In `Verif.Props.Table.SpinerRhoSie`.

* `C93_transformed` — temperature, pressure, heat capacity and bulk modulus by energy are those of the untransformed tables at the transformed energy.
* `C93_mass_fractions` — without a transform (`NullTransform`), the mass fractions by energy are those at the temperature of that energy.
* `C93_not_transformed_violated` — fails for the Grüneisen parameter by energy and the mass fractions by energy: both read the table at the untransformed energy, whatever the transform.
* `C93_shifted_violated` — … so for a shift of the energy by 1 they are not the values at the temperature that the EOS reports.

### C94 Spiner (density, energy) tables invert the pressure — partial

For SpinerEOSDependsRhoSie, DensityEnergyFromPressureTemperature returns a density whose pressure at that temperature is the requested one: on the table the log density is within robust::EPS of an exact solution; above the pressure of the highest tabulated density the density is the linear extrapolation of the isotherm.

Over: For every table, pressure, temperature and lambda contents..

In `Verif.Props.Table.Converge`, `Verif.Props.Table.InversionRate`, `Verif.Props.Table.SpinerRhoSie`.

* `C94_round_trip` — density from pressure and temperature. For an isotherm along which the pressure rises with the log density at least at rate `m` above the density of least pressure, and a pressure not above the stored maximum: the density found, with success reported, for the pressure at log density `x` has a log within `max eps (2 eps / m)` of `x`, whatever the lambda; and success is certain if the rate is at most `M` and the iterations suffice.
* `C94_rising` — the same for the energy-based table.
* `C94_above` — above the pressure of the table's highest density, the density returned is the linear extrapolation from there (up to the shift `δ` of the log conversion), it is reported as success, and it does not depend on the lambda.
* `C94_above_violated` — fails there all the same: the slope used is that at constant energy (`C96_stored`), not the isotherm's, so the pressure at the density returned is not the one asked for.
* `C94_table_partial` — missing: convergence when the root finder stops on its residuals: otherwise, for an isotherm that is continuous in the log density and takes the pressure between its ends, a successful inversion returns a density of the table whose log is within `robust::EPS` of one with exactly that pressure, whatever the lambda.
* `C94_unreachable_violated` — fails for a pressure the isotherm does not reach (below its minimum, or above its maximum where the stored slope is not positive): the density cached in `lambda` comes back.

### C95 The reference state of Spiner tables is a state of the EOS — partial

ValuesAtReferenceState returns a density and temperature on the table, the energy, pressure, heat capacity, bulk modulus and dP/de of the single queries there, and dv/dT at constant pressure there.

Over: For every table, normal density and table range..

In `Verif.Props.Table.SpinerRhoSie`.

* `C95_reference` — the reference state is a state of the EOS: its energy, pressure, heat capacity and bulk modulus are the single queries at its density and temperature, if these are the normal density and room temperature and on the table (or the log conversion is recovered exactly at the middle of the table).
* `C95_reference_on_table` — its density and temperature are inside the table (given the table's bounds are ordered and the log conversion keeps the middle inside).
* `C95_dvdt_iff` — `dv/dT` of the reference state divides by the pressure slope at constant energy; it is the value with the slope at constant temperature exactly when the energy does not depend on the density there (or `dP/dT` is zero).
* `C95_dvdt_violated` — fails: for `P = rho T`, `e = T - rho` the reference state at density 1 and temperature 3 reports `dv/dT = 1/4`; along the isobar `v = T/P`, so it is `1/P = 1/3`.
* `C95_true_dvdt` — what `dv/dT` at constant pressure is, for an isobar `r(T)` through the point, in terms of the stored derivatives: `dPdE cv / (rho^2 (dPdRho + dPdE dEdRho))`.
* `C95_dvdt_of_isothermal_slope` — when it holds: if at the reference point the stored pressure slope is the one at constant temperature, the reference state's `dv/dT` is the slope of the specific volume along the isobar through it.

### C96 sesame2spiner stores the derivatives the table EOS expect — proved

At every grid point the tables written by sesame2spiner hold the material's cgs pressure, energy and temperature, dP/drho and dT/drho at constant energy, dE/drho at constant temperature, dP/dE, dT/dE, dE/dT at constant density and the isentropic bulk modulus floored at zero, if EOSPAC returns exact values and derivatives; they satisfy the reciprocity relations.

Over: For every material (any differentiable functions), grid point and unit conversion..

In `Verif.Props.Table.SpinerRhoSie`.

* `C96_stored` — with `P`, `E`, `Tof` the material's functions in cgs units, the stored tables are the values of these functions and their derivatives: `dPdRho` and `dTdRho` at constant energy, `dEdRho` at constant temperature, `dPdE`, `dTdE`, `dEdT` at constant density.
* `C96_reciprocity` — if temperature and energy are inverse to each other near the point, the stored derivatives satisfy the reciprocity relations the EOS relies on: `dTdE * dEdT = 1`, `dTdRho = -dEdRho * dTdE`, `dPdRho` at constant temperature is `dPdRho + dPdE * dEdRho`; and the bulk modulus stored is the isentropic one, floored at zero.
* `C96_cold_curve` — on the cold curve, the stored bulk modulus is the density times the stored pressure slope, floored at zero, and the stored pressure, energy and slopes are EOSPAC's in cgs units.

### C97 StellarCollapse queries by energy are queries by temperature at the inverted temperature — proved

For StellarCollapse, every query by density and energy equals the query by density and temperature at the temperature TemperatureFromDensityInternalEnergy reports (the bulk modulus up to the floor only the temperature query has); energies at or below the cold curve give the lowest and those at or above the hot curve the highest tabulated temperature; in between, at the densities and electron fractions of the table, where stored log energies rise at least at rate m along temperature, the temperature found is within max(thr, 2 thr/m) (in log10) of the exact inverse.

Over: For every table, density, energy, electron fraction and cached temperature..

In `Verif.Props.Table.Converge`, `Verif.Props.Table.StellarCollapse`.

* `C97_round_trip` — the round trip on the table. At the densities and electron fractions of the table, if the stored log energies of neighbouring temperatures differ by at least `m` grid spacings (`m > 0`), then for every temperature strictly between the first and the last the temperature found from its energy, with success reported, has a log within `max thr (2 thr / m)` of the original, whatever the lambda cache holds; and success is certain if the differences are at most `M` spacings and the iterations suffice for `M / m`.
* `C97_energy_is_temperature` — every query by density and energy is the query by density and temperature at the temperature the EOS reports for that energy, for every state on or off the table and every lambda; the bulk modulus lacks the floor.
* `C97_clamped` — an energy at or below the cold curve gives the lowest temperature of the table, one at or above the hot curve (and above the cold one) the highest, whatever the lambda.
* `C97_table_converged` — at the densities and electron fractions of the table, on isochores with increasing energy, a successful inversion of an energy between the curves gives a temperature of the table whose logarithm is within the threshold of the one temperature that has exactly this energy, whatever the lambda cache holds.

### C98 The minimum energy of StellarCollapse is the least energy of the table — partial

MinInternalEnergyFromDensity is the energy at the lowest tabulated temperature, no energy at a temperature of the table is below it, and none is above the hot curve.

Over: For every table loaded from a file, density and electron fraction..

In `Verif.Props.Table.StellarCollapse`, `Verif.Props.Table.StellarCollapseLoad`.

* `C98_nodes` — at the densities and electron fractions of the table, the minimum energy is the energy at the lowest temperature, and (for isochores on which the energy increases) no temperature of the table has a smaller one, none has a larger one than the hot curve; and the global bounds hold.
* `C98_between_nodes_violated` — fail between the densities of the table (exact logarithms): the cold curve is interpolated linearly in the energy, the energy itself in its logarithm, so `MinInternalEnergyFromDensity` is above energies that the EOS takes at temperatures inside the table, and asking for the temperature of such an energy does not give it back.

### C99 The median filter of StellarCollapse removes exactly the outliers — proved

With filter_bmod set, the derivative tables are changed exactly at the entries at least three away from every face that differ from the median of the 7x7x7 entries around them (in the unfiltered table) by more than ten times its magnitude, and there become that median; no entry outside the table is read.

Over: For every table of every size..

In `Verif.Props.Table.IdealScript`, `Verif.Props.Table.StellarCollapseMore`.

* `C99_monotone` — the filter never alters a table that depends on one of its indices only and never decreases with it: the ideal gas tables of `make_tabulated_ideal_sc.py` for instance, however steep. Any sizes.
* `C99_median` — `findMedian_` of an odd number of entries is their median.
* `C99_filter` — filtering replaces exactly the interior entries that differ from the median `M` of the 343 entries around them (in the unfiltered table) by more than ten times `|M|`, by that median; everything else is unchanged. The entries used exist. Any table sizes.

### C100 The bulk modulus StellarCollapse computes is the isentropic one — proved

The bulk modulus built on loading is rho dP/drho along an isentrope for a pressure with the file's derivatives, and never below robust::EPS.

Over: For every entry of every table and every pressure and energy function with those derivatives..

In `Verif.Props.Table.StellarCollapseLoad`.

* `C100_floor` — every stored bulk modulus is at least `robust::EPS`; where the formula is not below that, it is the formula.
* `C100_isentropic` — that formula is the isentropic bulk modulus: for a pressure with the tabulated derivatives in density and energy, along any isentrope (on which `de/drho = P/rho²`) it is `rho dP/drho`.

### C101 Re-gridding of a stellarcollapse.org file keeps its values and range — partial

At every point of the look-up grid each table returns the file's own interpolation there (log-log for energy and pressure), and the range of validity is the file's, with temperature in K.

Over: For every file and grid point..

In `Verif.Props.Table.IdealScript`, `Verif.Props.Table.StellarCollapseLoad`.

* `C101_linear` — with true logarithms for the look-ups too, a table of the file that is linear in the electron fraction and the logarithms of temperature and density is reproduced exactly at every state, inside and outside the range of the file. Any sizes.
* `C101_regrid` — at every density, temperature and electron fraction of the grid used for look-ups, energy and pressure are ten to the file's own log-log interpolation (less the energy shift), and every table read linearly, apart from the chemical potentials, gives the file's own interpolation. Any sizes.
* `C101_file_points` — at the file's own grid points the values read are the file's: with the temperature of the point converted from MeV to K, the heat capacity is the file's converted from per MeV to per K (apart from the median filter), every other table is as in the file.
* `C101_bounds` — the range of validity is the file's: the bounds in temperature (converted from MeV to K), density and electron fraction.
* `C101_chemical_potentials_violated` — fails for the five chemical potentials whenever the fast logarithm is not `log10` (the default build): there is a file, whose table is the logarithm of the density, for which the value returned at a density is the fast logarithm of it.
* `C101_chemical_potentials_partial` — holds for the chemical potentials exactly where the two logarithms agree (for instance in a build with true logarithms): there every file's values are returned.

### C102 StellarCollapse FillEos agrees with the single queries — partial

Each quantity FillEos is asked for is what the corresponding single query returns for the given inputs, inputs are not modified, and the call stops exactly when nothing is asked for, the density is, or both temperature and energy are.

Over: For every table, state, lambda and set of requested outputs..

In `Verif.Props.Table.StellarCollapseMore`.

* `C102_by_temperature` — with temperature an input, every output asked for is the single query at the given density and temperature (the bulk modulus before its floor), and nothing that is an input changes, whatever the lambda.
* `C102_by_energy_partial` — with temperature an output, pressure, heat capacity and bulk modulus are the single queries at the given density and energy, and no input changes.
* `C102_temperature_violated` — fails for the temperature itself: asked for, it is never written; the caller keeps what was in the variable.
* `C102_abort` — the call stops exactly when nothing is asked for, density is, or both temperature and energy are.

### C103 The reference state of StellarCollapse is a state of the EOS — partial

ValuesAtReferenceState returns a state inside the table, with the energy, pressure, heat capacity, bulk modulus and dP/de of the single queries there and dv/dT at constant pressure.

Over: For every table..

In `Verif.Props.Table.StellarCollapseMore`.

* `C103_reference` — the values of the reference state are those the EOS's own queries give at its density, temperature and electron fraction; `dv/dT` is built from them.
* `C103_temperature_violated` — fails for the temperature: the class works in K, the reference temperature of 5 GK is entered in MeV, a factor `MeV2K` too small, so for every table that starts at 1 K or above the reference state is below the table.
* `C103_dvdt_iff` — `dv/dT` at constant pressure of the reference state has the slope at constant energy where the one at constant temperature belongs: it is right exactly where the energy does not depend on the density.

### C104 StellarCollapse tables survive Save and reload — proved

An EOS loaded from a stellarcollapse.org file, written with Save and loaded from that file, is the same EOS (every table, curve, size, bound and the energy shift), any number of times.

Over: For every file, filter setting and number of rounds..

In `Verif.Props.Table.StellarCollapseMore`.

* `C104_save_load` — an EOS loaded from a stellarcollapse.org file, saved and loaded again, is the same EOS: all eighteen tables, the curves, sizes, bounds and the energy shift.
* `C104_loaded_consistent` — an EOS loaded from an original table file meets the hypothesis of the round trip theorem.
* `C104_rounds` — the same for whatever was loaded from a saved file, so any number of rounds gives the same EOS.

### C105 StellarCollapse inverts the pressure — partial

DensityEnergyFromPressureTemperature returns a density with the requested pressure at that temperature (log density within the root-find threshold of an exact solution) and the energy there, or reports failure.

Over: For every table, pressure, temperature, electron fraction and starting density..

In `Verif.Props.Table.Converge`, `Verif.Props.Table.InversionRate`, `Verif.Props.Table.StellarCollapseMore`.

* `C105_round_trip` — the round trip of pressure. If the stored log pressures of neighbouring densities differ by at least `m > 0` grid spacings at every temperature and electron fraction of the table, then for every density, temperature and electron fraction within the table the density found from the pressure and the temperature, when the root finder succeeds, has a log within `max thr (2 thr / m)` of the original, from any incoming density.
* `C105_rising` — and for the stellar collapse table: `dePT` returns a density whose logarithm is within `max(thr, 2 thr / m)` of the one with the requested pressure (the status is not reported to the caller, but success is certain under the last four hypotheses).
* `C105_unreachable_violated` — fails when the isotherm does not take the pressure: the call returns normally, with the incoming density (if it is on the table) and the energy there.
* `C105_table_partial` — missing: convergence when the root finder stops on its residuals; unreachable pressures, see above: for a temperature and electron fraction at which the isotherm takes the pressure between the ends of the table, a successful inversion returns a density of the table whose logarithm is within the threshold of one with exactly this pressure, and the energy at the returned density and the given temperature.

### C106 EOSPAC queries are pure: right units, no trace in the library — proved

Every scalar query of the EOSPAC class returns the tabulated value (or the named combination of tabulated derivatives) in cgs units, and leaves the conversion options of the EOSPAC tables as after loading; hence after any history of operations every operation answers what it would have answered right after loading.

Over: For all tables, arguments, contents of uninitialised locals, and all finite histories of operations..

In `Verif.Props.Eos.Eospac`.

* `C106_queries` — every scalar query returns the tabulated value in cgs units (see `Spec.Eospac.answer`) and leaves the shared state of the library as it found it; the contents of uninitialised local variables (`g`, `u`) are irrelevant.
* `C106_operations` — what the operations of a history give on their own: every query its answer, the density and energy at a pressure and temperature both, the combined call the six entries of the state it returns, the derivatives all four.
* `C106_history` — for every history of operations by one thread, each answer is what the operation gives on its own right after loading, and the library ends up in the state after loading.

### C107 EOSPAC queries from several host threads do not disturb each other — partial

When several threads query the same EOSPAC object, every thread gets the answer it would get alone, for every interleaving of their library calls.

Over: For any number of threads, any operations, any schedule..

In `Verif.Props.Eos.EospacThreads`.

* `C107_alone` — the sequence of library calls of an operation, made without interruption from any state, does what the operation does.
* `C107_interleaved_partial` — any number of threads perform operations on the same object, their library calls interleaved in any order. If no other thread performs an operation that sets options on the table on which thread `i` sets options, then thread `i`, once scheduled often enough, has the answer it would have got alone; up to then it is not finished with any other answer. (Every operation but the pressure of density and energy and the minimum energy sets no options.)
* `C107_pressure_race_violated` — is violated: two threads ask for the pressure at the same density and energy; one thread's options are cleared by the other before its lookup, and it returns `10^20` instead of `10^10`.

### C108 eosSafeInterpolate reports success exactly when the lookup succeeded — partial

The Boolean returned by eosSafeInterpolate ('1 for no errors') is true exactly when the table lookup had no error, whatever options and verbosity were passed.

Over: For all option lists, verbosities and outcomes of the library calls..

In `Verif.Props.Eos.EospacFill`.

* `C108_status_partial` — without options and without debug output, `eosSafeInterpolate` reports success exactly when the lookup succeeded.
* `C108_success_reported` — a lookup that succeeds is reported as a success, whatever the options and the verbosity (if resetting the options succeeds).
* `C108_status_violated` — is violated: with any option set, or with debug output, a failed lookup is reported as a success whenever the calls that follow it succeed.

### C109 EOSPAC FillEos agrees with the single queries — partial

For each accepted combination of outputs, FillEos stores exactly the requested quantities, each equal to the single query at the state determined by the inputs (density and temperature, pressure and temperature, density and pressure, or density and energy), and leaves the others alone.

Over: For all tables, states, accepted output combinations and contents of the output-only arguments..

In `Verif.Props.Eos.EospacFill`.

* `C109_from_density_temperature_partial` — density and temperature given: `FillEos` stores exactly the requested quantities, each equal to the answer of the corresponding query, and leaves the others and the library alone.
* `C109_from_pressure_temperature_partial` — pressure and temperature given, density wanted: every requested quantity is the one at the density of that pressure and temperature.
* `C109_from_density_pressure_partial` — density and pressure given, temperature and energy wanted: every requested quantity is the one at the temperature of that density and pressure.
* `C109_from_density_energy_partial` — density and energy given, temperature wanted: the temperature is right; pressure, heat capacity and bulk modulus are those at the temperature *passed in*.
* `C109_stale_temperature_violated` — is violated: density and energy given, temperature and pressure wanted (the combination a hydro code asks for): the pressure returned is the one at the temperature passed in, here `0` instead of `5·10^10`.
* `C109_accepts` — the combinations `FillEos` accepts: something is requested; if density is, pressure and temperature are not; if temperature is, density is not, and energy or pressure is not.

### C110 EOSPAC table selection is uniform — partial

With a table split selected (electron only, ion plus cold) every query is answered from the tables of that part; in particular the minimum energy is a lower bound of the energy.

Over: For all materials and selections..

In `Verif.Props.Eos.EospacFill`.

* `C110_split_partial` — with the default selection every table is a table of the total; with a split selection the tables of pressure, temperature, energy and entropy are those of the part.
* `C110_split_violated` — is violated: whatever the selection, the minimum energy is the cold curve of the total and the density of pressure and temperature (array `FillEos`; the scalar calls refuse) is the density of the total. So with electrons selected the "minimum energy" can exceed the energy at every temperature up to some positive one, although it is a true minimum for the total.

### C111 EOSPAC derivative queries are derivatives of its other queries — proved

Where the tables are differentiable and mutually consistent with positive heat capacity, temperature and energy invert each other, by-temperature and by-energy queries agree, heat capacity and Gruneisen parameter are the derivatives they are named after, and the bulk modulus is the isentropic derivative of the pressure clipped at zero.

Over: For all such tables and states..

In `Verif.Props.Eos.EospacThermo`.

* `C111_answers` — where the heat capacity is positive and the tables are consistent with each other, the answers are thermodynamically consistent: temperature and energy invert each other, by-temperature and by-energy answers agree, the heat capacity and the Grüneisen parameter are the derivatives they are named after, and the bulk modulus is the isentropic derivative of the pressure, clipped at 0.
* `C111_gas_example` — a gas with `P = ρT`, `e = T` meets the hypotheses.

### C112 EOSPAC pressure-temperature derivatives are true derivatives — proved

PTDerivativesFromPreferred returns the derivatives by pressure and temperature of density and energy as functions of pressure and temperature.

Over: For all differentiable tables with dP/drho nonzero and every differentiable local solution of P(rho,T)=P..

In `Verif.Props.Eos.EospacThermo`.

* `C112_ptd` — the pressure-temperature derivatives are the derivatives of the density and energy as functions of pressure and temperature (cgs), for every differentiable local solution `ρ(P,T)` of `P(ρ,T) = P`; the library is left as found.

### C113 EOSPAC reference state is a state of the EOS — partial

ValuesAtReferenceState reports the normal density, 293 K and the pressure, energy, heat capacity, bulk modulus and dp/de of the queries there, and dv/dT = (dP/dT)/(rho^2 dP/drho).

Over: For all tables and normal densities..

In `Verif.Props.Eos.EospacThermo`.

* `C113_reference_partial` — the state reported by `ValuesAtReferenceState` is at the material's normal density and 293 K, and (with exact divisions, for a positive density and positive `∂e/∂T`) pressure, energy, heat capacity, bulk modulus and `dp/de` are those of the queries there, and `dv/dT` is `(∂P/∂T)/(ρ² ∂P/∂ρ)`.
* `C113_reference_bulk_violated` — is violated where `∂e/∂T ≤ 0` (a table without thermal part): the reference bulk modulus is not the answer of the bulk modulus query at the reference state. Here `P = T ρ²`, `e = -ρT`, density 1.

### C114 EOSPAC array calls honour the Transform and stay in their scratch — proved

Every array call with scratch writes in slot i the f factor times the scalar answer at the x and y factors times the inputs, writes nothing but the output and the scratch declared by scratch_size, and leaves the library as after loading.

Over: For all tables, lengths, inputs, prior contents of output and scratch, and transforms with positive factors..

In `Verif.Props.Eos.EospacVec`.

* `C114_arrays` — every array call with scratch leaves the library as found, writes in slot `i` of the output the `f` factor times the answer at the `x` and `y` factors times the inputs, and writes nothing but the output and the scratch it declared (`scratch_size`), whatever scratch and output contained.
* `C114_minE` — the array minimum energy likewise (one scratch array); the cold curve is a function of density alone.

### C115 EOSPAC array FillEos leaves inputs alone and fills what was requested — partial

The array FillEos stores in each slot the requested quantities at the state determined by the inputs and leaves the arrays that were not requested alone.

Over: For all tables, lengths, contents and accepted output combinations..

In `Verif.Props.Eos.EospacVecFill`.

* `C115_array_fill_partial` — what the array `FillEos` leaves in the six arrays: requested quantities are right, at the density and temperature determined by the inputs; but the energy array is overwritten with the energy at that state whenever heat capacity or bulk modulus is requested, and the pressure array whenever the bulk modulus is. The library is left as found; nothing but the six arrays and four scratch arrays is written.
* `C115_array_fill_accepts` — the array `FillEos` accepts exactly the requests the scalar one accepts, whatever the arrays hold, and when it does it ends in the state described by the other theorems.
* `C115_inputs_kept_partial` — so arrays that were not requested are left alone if neither heat capacity nor bulk modulus is requested; if they are, the energy array is left alone where the energy is that of the state, and the pressure array where the pressure is.
* `C115_inputs_overwritten_violated` — is violated: asking the array `FillEos` for the heat capacity at given density and temperature overwrites the caller's energies, and asking for the bulk modulus also the pressures (the scalar call leaves both alone). Here energy 7 becomes `5·10^10`, pressure 9 becomes `5·10^10`.

### C116 sesame2spiner reads its input decks as written — partial

From a set of decks made of blank lines, comments, headers <name> and assignments key = value the tool reads all materials in order, each with the last value assigned to every key and the material number after matid; a material without matid and an unclosed header are rejected; any other line is rejected.

Over: For all decks: any number of files, lines, materials and keys, any text..

In `Verif.Props.Tools.ParserMore`, `Verif.Props.Tools.Sesame2Spiner`.

* `C116_parameter_file` — a parameter file without headers, read line by line: every key has the value last assigned to it, and keys never assigned have none.
* `C116_truth_value` — a truth value is read as written, `true`, `1`, `false` or `0`; anything else stops the program; a missing key gives the default.
* `C116_lines` — The lines read from a file are its lines.
* `C116_decks` — **C116.** Well-formed decks whose materials all have a number are read as they are meant: all materials of all the files, in order, each with the last value assigned to every key and no other keys, and the number written after `matid`.
* `C116_matid_required` — **C116.** A deck with a material without number (no `matid`, or one without a digit) is rejected, whatever the other files hold.
* `C116_header_closed` — **C116.** A header without its `>` is rejected, whatever else the deck and the other files hold.
* `C116_no_equals_violated` — **C116 is violated** for lines that are not well formed: a line without `=` (and which is no comment and no header) is not rejected; it adds a parameter named like the whole line, and the parameter the user meant keeps its default.
* `C116_comment_in_key_violated` — **C116 is violated**: a comment after a key hides nothing; with a `=` in the comment, the text of the comment becomes part of the key.
* `C116_matid_trailing_violated` — **C116 is violated** for the material number: what follows the digits is ignored.

### C117 sesame2spiner obeys its command line — partial

Whatever the order of the arguments, the tool reads the files given, in order, writes to the file after the last -s or materials.sp5, prints metadata if -p is given and uses the highest verbosity asked for; -h prints the help, no file prints the usage; every option is taken as an option.

Over: For all command lines..

In `Verif.Props.Tools.Sesame2Spiner`.

* `C117_command_line_partial` — **C117.** A command line with at least one file, in which the verbosity is only ever raised by a later flag, is taken as it is meant, whatever the order of its arguments: the files in order, the last `-s`, `-p`, the verbosity.
* `C117_no_file` — **C117.** Without a file the tool stops with the help text.
* `C117_help` — **C117.** `-h` prints the help and stops, wherever it stands among the options and files.
* `C117_repeated_flag_violated` — **C117 is violated**: asking twice for the same verbosity, or for less than before, makes the flag the name of an input file. For instance `-v -v deck` reads the files `-v` and `deck`.
* `C117_save_last_violated` — **C117 is violated**: `-s` as the last argument reads a null pointer.
* `C117_unknown_option_violated` — **C117 is violated**: a mistyped option is the name of an input file.

### C118 sesame2spiner writes each material once, under a name of its own — partial

Each material number is written exactly once, with the parameters given first, in the order asked for; it is linked under the name of the deck, else that of the library, else material_i, with _2, _3, ... for repeated names; no two materials are linked under the same name.

Over: For all sets of materials, names and numbers..

In `Verif.Props.Tools.MatBoundsMore`, `Verif.Props.Tools.Sesame2Spiner`.

* `C118_name_asked` — **C118.** The name asked for is the one in the deck, without one that of the library; without either (the library says `-1` or nothing) it is `material_` and the position in the deck.
* `C118_each_once` — **C118.** Every material number asked for is written exactly once.
* `C118_first_wins` — **C118.** A number asked for several times is written with the parameters that came first, and the materials are written in the order in which they were asked for.
* `C118_names` — **C118.** The names: a material is written under the name it asked for if no material written before it asked for the same; otherwise `_2`, `_3`, … is appended.
* `C118_names_distinct_partial` — **C118, partly.** If no name asked for is another one followed by `_` and a number, then no two materials are written under the same name.
* `C118_name_collision_violated` — **C118 is violated**: materials that ask for the names `a`, `a` and `a_2` are written as `a`, `a_2` and `a_2`.

### C119 sesame2spiner grids span what the user or the data say — partial

The density, temperature and energy grids begin and end where the user said, else at the ends of the data (density and temperature no lower than 1e-8 and 1e-2), shrunk by the user's factor brought into [0,1]; their pieces adjoin; they are refined around the user's centre or the normal density, in the fine region the user gave, and split at the energy of the user's split temperature.

Over: For all parameter values, data ranges and logarithms..

In `Verif.Props.Tools.MatBounds`, `Verif.Props.Tools.MatBoundsMore`.

* `C119_density_range` — **C119.** The density grid: its lower end is what the user gave, or at least that of the data, but never below `1e-8`; its upper end is what the user gave or that of the data; the shrinking factor is that of the user, brought into `[0, 1]`.
* `C119_temperature_range` — **C119.** The temperature grid, likewise, with the lower limit `0.01`.
* `C119_energy_range` — **C119.** The energy grid, likewise, without a lower limit (energies may be negative).
* `C119_density_centre` — **C119.** The point the density grid is refined around is what the user gave, or the normal density, if that is a possible density; otherwise 1.
* `C119_fine_region_partial` — **C119, partly.** The ends of the finely resolved density region given by the user are used, if they are whole numbers.
* `C119_fine_region_truncated_violated` — **C119 is violated**: fractions of the ends of the finely resolved region are cut off. For instance `2.5` and `20.5` are used as 2 and 20.
* `C119_fine_region_ignored_violated` — **C119 is violated**: a finely resolved region that begins below 1 g/cc is ignored, whatever its upper end; and `1e-3` is taken as 1.
* `C119_pieces_adjoin` — **C119.** The density grid consists of three pieces that adjoin, and spans the range in the logarithm; the temperature grid of two.
* `C119_temperature_pieces_adjoin` — **C119.** The temperature grid: the same for its two pieces.
* `C119_energy_split_violated` — **C119 is violated** for the energy grid: the energies at the anchor and at the temperature the user chose for the split are in the units of the data library (a factor `1e10` smaller), the range is in cgs. When these numbers do not exceed the lower end of the range (air: about 7 against 8.4e8) the grid does not depend on the split temperature at all.
* `C119_inside_data` — **C119.** Without a lower end given by the user the grids begin strictly inside the data: lookups at their first point do not hit the edge of the data. For densities and temperatures they begin at most `ε` later (or at the fixed lower limit).
* `C119_half_region` — **C119.** A finely resolved region of which only one end is given is not used: centre and diameter decide.
* `C119_resolution` — **C119.** The pieces of the density grid below and above the finely resolved region are coarser by the factors the user gave for them (3 and 5 by default) than the number of points per decade (350 by default).
* `C119_temperature_resolution` — **C119.** The same for the upper piece of the temperature grid (100 points per decade and the factor 3/2 by default).
* `C119_temperature_split` — **C119.** The finely resolved piece of the temperature grid ends at the split point of the user (`10^4` K by default), when that is inside the range: not above it, and at most four grid spacings (`1/n` decades) below it, as the temperature 298.15 K is made a grid point.
* `C119_fine_region_placed` — **C119.** The finely resolved piece of the density grid is where the user put it. If the ends `a < b` are given and inside the range, it begins at `a` and ends not above `b` and at most four grid spacings (`1/n` decades) below it, as the centre is made a grid point; without ends it is centred on the centre, with the diameter in decades the user gave (3/2 by default), likewise.

### C120 Python array calls are elementwise scalar calls — partial

A Python query on arrays stores at every position of the output array the scalar answer for that position's inputs and lambda values, leaves in the lambda array what the scalar query leaves there, and touches no other memory; for any strides, any order of the loop, and in place when earlier points do not overwrite what later ones read. The scalar call uses the lambda array passed. With scratch memory (EOSPAC) the same holds for packed arrays, and others are refused (false in release builds).

Over: For all queries, lengths, strides, memory contents and overlaps..

In `Verif.Props.Bindings.Python`, `Verif.Props.Bindings.PythonArrays`.

* `C120_elementwise_partial` — partial: a Python array query is the scalar query at every point and touches nothing else. The arrays may have any strides (slices, reversed, broadcast inputs); the output may be one of the inputs or overlap them as long as what a point writes is not used by a later point. Missing: it needs the other arrays to be at least as long as the first, and rows of lambdas to be contiguous (or at most one value per row); see the `_violated` theorems.
* `C120_any_order` — in a build with a parallel host loop the order of the points does not matter if no point writes what another one uses.
* `C120_short_output_violated` — is violated when the output array is shorter than the first input: an address outside all arrays is overwritten (here one `Real` after the output array).
* `C120_short_input_violated` — is violated when the second input is shorter than the first: the answers depend on memory outside all the arrays.
* `C120_lambda_order_violated` — is violated for lambdas whose rows are not contiguous, such as `numpy.asfortranarray` or a transposed array: point 0 gets value 0 of point 1 as its second lambda value.
* `C120_dtype_violated` — is violated for an output array of another element type (say `float32`): the call fills a converted copy and the caller's array keeps its old contents, whatever the query is. No lambdas; the copy is new memory.
* `C120_dtype_double` — ... while an array of doubles is filled in place, as in `C120_elementwise_partial`.
* `C120_scalar_partial` — partial: the scalar query with a contiguous lambda array reads exactly the values of that array and leaves the query's values in it; nothing else changes. Missing: strided lambda arrays.
* `C120_scalar_stride_violated` — is violated for a strided one-dimensional lambda, such as a column of a two-dimensional array.
* `C120_scratch` — with scratch memory: if the arrays are packed, the call is what the EOS does with the raw pointers: right at every point when the EOS is right on packed arrays (C114 for EOSPAC). A debug build stops if any of the arrays is not packed, so whatever it returns is right.
* `C120_scratch_stride_violated` — is violated with scratch memory in a release build: strided arrays are taken as if they were packed. Here the first input is every second element of an array; the second answer is that of the skipped element.
* `C120_scratch_single_violated` — is violated with scratch memory in a debug build: an array of one element that was cut out of a larger one is refused for its stride, although one element is always packed.

### C121 Python FillEos with keywords and on arrays — partial

FillEos(**kwargs) takes the keywords passed as inputs; with output given it computes exactly those quantities from them, and without it the quantities not passed. What was passed and not asked for comes back unchanged. On arrays, FillEos is the scalar FillEos at every point, for any strides, and touches nothing else (false for EOSPAC, which takes strided arrays as packed).

Over: For all EOS that honour their flags, all sets of keywords and values, all arrays..

In `Verif.Props.Bindings.Python`, `Verif.Props.Bindings.PythonArrays`.

* `C121_explicit_output` — with `output` given, Python's `FillEos` is the C++ `FillEos` on exactly the values passed by keyword, with that output set; keywords not passed are NaN, and every quantity not asked for comes back as passed when the EOS honours its flags (C51).
* `C121_auto_output_violated` — is violated without `output`, for every EOS that honours its flags: the keywords that are passed are flagged as outputs instead of the others, so a quantity that was not passed is never computed: it comes back as NaN.
* `C121_inputs_lost_violated` — ... and the quantities that were passed do not survive either: for an ideal gas and `FillEos(rho=.., sie=..)` the result is the same whatever density and energy were passed (they are recomputed from the NaN pressure and temperature).
* `C121_arrays_partial` — `FillEos` on arrays is the scalar `FillEos` at every point, with the six numbers of that point as its arguments and results, and touches nothing else; for all strides, in any order of the points. (As for `C120_elementwise_partial` the other arrays must be as long as the first and rows of lambdas contiguous, and no two values may share memory.)
* `C121_scratch_stride_violated` — is violated with scratch memory (EOSPAC), in every build: `FillEos` hands strided arrays over as if they were packed, and nothing checks it. Here the first array is every second element of a larger one, and the fill copies density to pressure.

### C122 The Fortran interface reaches the C interface with the same meaning — partial

A Fortran query stores the scalar answer of every element in the same element and changes nothing else; materials are numbered from 1 and a query uses the last EOS set for that number; optional arguments have their documented defaults; modifier arrays are not changed, so calls can be repeated; per-material fractions are found where Fortran stores them; finalising leaves a Kokkos started by the host running.

Over: For all arrays, shapes, lambdas, histories of initialisations and modifier arrays..

In `Verif.Props.Bindings.Fortran`.

* `C122_query_partial` — partial: a Fortran array query on whole arrays of the same shape with `len` their number of elements, without lambdas, stores the scalar answer of element `(i, j, k)` in element `(i, j, k)`, for all of them, and changes no other memory. Missing: array sections (violated below) and lambdas (next theorem).
* `C122_query_lambda_partial` — partial: with stride `nl` and a whole lambda array whose first dimension is the `nl` values of a point, point `p` (in column-major order) uses values `nl*p ..` of it: the answers are the scalar answers and the lambda values are those the query leaves. Missing: sections.
* `C122_section_violated` — is violated for array sections (which the assumed-shape dummy arguments accept): of `out(1:3:2,1:1,1:1)` the second element is not computed and an element outside the section is overwritten.
* `C122_materials` — material numbers: after any sequence of initialisations, a query of material `k` runs on the EOS of the last initialisation of material `k`, whatever was done to the other materials.
* `C122_materials_in_range` — material 1 is element 0 of the C array (so `nmat` materials numbered from 1 use exactly the elements below `nmat` that `init_sg_eos` allocated).
* `C122_modifiers` — the modifier arrays of a Fortran initialisation are optional and never changed, and the EOS stored is the one the arrays ask for: absent arrays mean no modifiers; otherwise shift, scale and ramp as documented (`CApi.specDesc`, as for C in C27). So the same call repeated with the same arrays stores the same EOS.
* `C122_carnahan_violated` — is violated by the initialiser of CarnahanStarling: it hands the caller's arrays to C, which overwrites the P-alpha parameters by ramp parameters; the same call repeated stores another EOS.
* `C122_split` — the Spiner initialisers use the split passed, or 0 (the total table) when it is absent.
* `C122_eospac_split_violated` — is violated by the EOSPAC initialiser: when the optional `split` is absent, what reaches C is undefined: any value is possible.
* `C122_fractions_partial` — partial: the mixed-cell call finds the entry of cell `i`, material `j` of a whole array exactly when the cell dimension passed is the first extent of that array (or there is one material): the arrays of mass, volume and energy fractions must have `cell_dim` rows, not `ncell`. Missing: sections.
* `C122_kokkos_once` — a host program that leaves Kokkos to this library can initialise, use and finalise once.
* `C122_kokkos_c` — with the C function and `own_kokkos = 0`, a host program that runs Kokkos itself keeps it running, over any number of initialise/finalise rounds.
* `C122_kokkos_violated` — is violated in Fortran: `finalize_sg_eos_f` shuts down a Kokkos that the host program started, and a second round (or a second set of materials) then fails.

### C123 The Helmholtz table file is read as published and reproduced — partial

Constructing Helmholtz from a table file succeeds exactly when the file has all the numbers of a table; each number ends up in its own table at its own density and temperature; the grid is the published one; every state is looked up in its own cell; and at the densities and temperatures of the table the electron answers are those of the file. A table of another shape is rejected.

Over: For all contents of the file, all states, and whatever the memory held before..

In `Verif.Props.Eos.HelmholtzFile`.

* `C123_reads` — **C123.** A file with all the numbers of a table is read, each number to its place in its table; whatever follows those numbers, and what the memory held before, plays no role.
* `C123_rejects` — **C123.** A file that ends early, or has a word that is not a number where one is needed, is rejected.
* `C123_grid` — **C123.** The loaded EOS has the published grid: `T_j = 10^(3 + j/10)`, `rho_i = 10^(-12 + i/10)`, strictly increasing; and its limits are the ends of the grid.
* `C123_cell` — **C123.** Every state strictly between grid lines is looked up in its own cell; so the theorems about the electron part (C77, C81) apply to it.
* `C123_nodes` — **C123.** At the temperatures and electron densities of the table the electron pressure, energy, entropy, chemical potential and pair density reported by the EOS are those of the file: with `f`, `fd`, `ft`, `ef` and `xf` of the row, `P = De^2 fd`, `e = Ye (f - T ft)`, `s = -Ye ft`, `eta = ef`, `n = xf`.
* `C123_shape_violated` — **C123 is violated** for tables of another shape: a complete table with 541 densities and 201 temperatures (such tables are published too) is accepted, and every number of it is put where it does not belong: what the EOS takes for the free energy at its second temperature and first density is the file's at the first temperature and 272nd density.

### C124 What sesame2spiner writes is what the Spiner EOS read — partial

Every material written by sesame2spiner to an sp5 file can be loaded by SpinerEOSDependsRhoT and SpinerEOSDependsRhoSie, by its number or by its name, and the EOS then has that material's number, offsets, normal density and composition, and tables that hold, at every grid point, the library's value of pressure, energy, temperature, bulk modulus and each derivative in cgs units, of the requested part (total, electrons, ions with cold curve); the mass fractions are each phase's own. A part that was not written, an unknown material, or a file made with another kind of logarithm is refused.

Over: For all libraries, all lists of materials with their grids, all parts, all sizes of grids and numbers of phases..

In `Verif.Props.Tools.Sp5File`.

* `C124_rhoT` — every material written can be loaded by its number or by its name, and what is loaded is the material: its number, its attributes, and tables of the library's values in cgs units. The cold curves are those of the whole material whatever the part.
* `C124_rhoSie` — the same for the EOS tabulated on density and energy.
* `C124_no_subtables` — a part of a material that was not written is not silently replaced by the whole: the program stops.
* `C124_unknown_material` — a number that was not written is not found.
* `C124_log_type` — a file made with another kind of logarithm is refused when a material is loaded by its number into the EOS tabulated on density and temperature.
* `C124_log_type_violated` — does not hold for the other ways to load: by name, or into the EOS tabulated on density and energy, a file made with another kind of logarithm is taken without complaint, although its grids are positions in the other logarithm.
* `C124_slash_violated` — does not hold for names with a slash: a material so named is written, but cannot be loaded by its name.
* `C124_named_after_number_violated` — does not hold if a material is named after the number of a later one: the later material is not written. Its attributes replace those of the first, and loading either number gives the first material's tables with the second material's offsets, normal density and composition.
* `C124_no_log_type` — a file without the attribute naming its logarithm is read, by matid, as one written with the first-order logarithm (type 1): a build with another refuses it.

### C125 EOSPAC tables get the options asked for and are released — partial

eosSafeLoad sets on each table exactly the options requested for its type before loading and reports failures; eosGetMetadata returns the entries of the data file in cgs units and the material name of the comments; the table-existence check is right; a constructed EOSPAC object has its tables loaded; and no metadata request, existence check, tabulation or finalized object leaves tables in the library.

Over: For all table lists, options, materials, library behaviours (any error at any call) and any sequence of operations..

In `Verif.Props.Tools.EospacLoad`.

* `C125_options` — if the tables can be created, `eosSafeLoad` sets on each table exactly the options its type should get, each once and with the right value, and nothing else, before loading all tables; it returns the handles, and the code of the load.
* `C125_create_fails` — If the tables cannot be created the code says so, no option is set and nothing is loaded.
* `C125_refused_option_violated` — Violation: an option the library refuses is not reported: `eosSafeLoad` returns the success code although the option asked for was refused.
* `C125_parts_not_excluded_violated` — Violation: the exclusions are for the tables of the total only. For an electron or ion part, inversion at setup is also set on the pressure, energy and entropy tables on (density, temperature), and monotonicity and smoothing on the energy and entropy tables.
* `C125_exists` — `eosCheckTableExistence` answers 1 exactly when the table could be loaded, 0 exactly when the library says there is no such table, −1 otherwise; and the table is released.
* `C125_released` — whatever metadata requests, existence checks, tabulations, phase tables and objects (constructed, queried, finalized) a program makes, in whatever order and whatever fails, no table is left in the library — provided comment tables that can be created can be loaded.
* `C125_comments_leak_violated` — Violation: if the comment table can be created but not loaded, `eosGetMetadata` never releases it.
* `C125_cold_curves_leak_violated` — Violation: the cold curves never release their two tables: after n of them 2n tables are left in the library.
* `C125_ctor_partial` — a constructed object has all tables loaded, up to entropy; and says so about entropy exactly when the library has no complaint about that table — provided the library created all tables.
* `C125_ctor_unloaded_violated` — Violation: if the library reports the missing entropy table when tables are created (not when they are loaded), the constructor goes on with an object none of whose tables was ever loaded, although it looks like one that merely lacks the entropy.
* `C125_metadata_cgs` — the metadata of a material are the entries of the data file in cgs units, whatever happened before, if the library answers info requests from a data file.
* `C125_name_partial` — in comments of the usual form, "101: material", any character, a blank, the name, white space `bl ++ [w]` with no line end in `bl`, "(z" — the first such label, with no other parenthesis on the rest — the name found is the name followed by `bl`. If `w` is a line end, more white space `ws` may follow it.
* `C125_name_one_line` — a name found never runs over the end of a line.
* `C125_name_found` — In particular with one blank the name is found exactly.
* `C125_name_violated` — Violation: the name keeps blanks, and text up to the last "(z" of the line.
* `C125_mass_fraction_result` — `eosMassFraction` reports `true` exactly when the phase table exists.
* `C125_no_name` — Comments without the label give the name "-1".

### C126 Modifiers can be stacked and removed through the variant, and names tell the results apart — partial

Variant::Modify<M>(args) returns exactly the modifier around the held EOS when the variant has that type and the modifier's constructor accepts the arguments, and stops the program otherwise (it never returns the EOS unmodified); EOSBuilder::is_modifiable predicts which. After any sequence of modifications UnmodifyOnce undoes the last, GetUnmodifiedObject returns the original EOS, IsModified says whether there were any; further UnmodifyOnce calls change nothing. The default variant accepts exactly the sequences shift, scale, ramp with any of them left out, and is closed under removing modifiers. EosType (and EosPyType) differ for different types, however deeply modified, so AvailableEOSs lists every alternative. Every EOS whose modified forms are Python classes is a Python class itself, under its EosPyType (false for Vinet, MGUsup, PowerMG and the (density, energy) tables).

Over: every variant list, every sequence of modifications, every object.

In `Verif.Props.Variant`.

* `C126_modify` — `Modify` gives exactly the modifier around the unchanged object, when the variant has that type and the modifier's constructor accepts its arguments; otherwise the program stops. In particular it never returns the object unmodified.
* `C126_is_modifiable` — the static question `is_modifiable` says in advance whether `Modify` finds its type, for an object that is in the variant.
* `C126_unmodify` — whatever modifiers were put on a base EOS, in any number, `GetUnmodifiedObject` gives that base EOS back; `IsModified` tells whether there was any; removing the modifiers one by one gives back each intermediate object and removing more than there are changes nothing.
* `C126_unmodify_once` — one modification and its removal: the object is as before.
* `C126_default_closed` — removing modifiers never leaves the default variant: with a type, the type under its outermost modifier and the base type are alternatives too (so `UnmodifyOnce` and `GetUnmodifiedObject` can return a variant).
* `C126_default_sequences` — the modifications the default variant accepts, starting from any of its unmodified EOS, when every constructor accepts its arguments: at most one shift, then at most one scaling, then at most one ramp, in this order and nothing else. Any other order or repetition, and any other modifier, stops the program.
* `C126_names_distinct` — names tell EOS types apart: if the base names differ and contain no `<`, two types have the same `EosType` only if they are the same type, however deeply modified.
* `C126_python_names_distinct` — so are the names of the Python classes, if no base name begins like a modifier.
* `C126_library_names` — the base EOS of the library have distinct names, none contains `<` and none begins like a modifier; so the names of all alternatives of the default variant are distinct, as `AvailableEOSs` (a set) presumes.
* `C126_python_classes_violated` — is violated for Python: the class of the (density, energy) table EOS is registered under another name than its `EosPyType`, from which the names of its modified classes are made; and `Vinet`, `MGUsup` and `PowerMG`, whose modified classes are registered for every build (they are in the list of all EOS, with or without the further EOS of the build options), are not registered themselves, so no object of those modified classes can be made.

### C127 Debug builds of the C interface stop exactly on unusable values — partial

In a debug build get_sg_eos stops on input exactly when some normalised mass fraction, the pressure, the energy or the specific volume is NaN, infinite, subnormal or within 1e10 of overflow, and on output exactly when, besides that, a quantity that must be positive is not; error_utils::negative_value flags negative values. (It also flags zero: a cold state with temperature, heat capacity or Gruneisen parameter zero stops the program.)

Over: every cell state, any number of materials, any rounding.

In `Verif.Props.DebugChecks`.

* `C127_bad_value` — `bad_value` flags exactly NaN, the infinities, non-zero subnormal numbers, and numbers within `10^10` of overflow.
* `C127_non_positive_value` — `non_positive_value` flags exactly what is not positive, NaN included.
* `C127_negative_value_violated` — is violated: `negative_value` says that zero is negative; it is the same test as `non_positive_value`.
* `C127_input` — a debug build stops on input exactly when some mass fraction (after normalisation), the pressure, the energy or the specific volume is unusable.
* `C127_output` — a debug build lets a result through exactly when every participating material has usable, positive mass fraction and volume, usable energy, and (where requested) usable positive bulk modulus, heat capacity and Gruneisen parameter, and the cell has usable pressure and energy and usable positive temperature, bulk modulus, heat capacity and Gruneisen parameter.
* `C127_cold_state_violated` — is violated: a legitimate cold state stops a debug build, whatever the other values: temperature zero, or the zero heat capacity a table gives on its cold curve, or a zero Gruneisen parameter, requested per material.

### C128 EOSPAC objects survive serialisation, and their tables are released — partial

A deserialised EOSPAC object, alone or in a list, in another process, from a private buffer or a shared block, answers every query like the one that was serialised, with the number of bytes announced, new table handles that are the ones it later releases, and no effect on other tables; without a shared block a shared build stops. Each table is destroyed exactly once, as for the other EOS even if an object is finalised twice or has a device copy (violated).

Over: every library that keeps its packing contract, every object, process state, buffer address, shared block and list length; every program of constructions, deserialisations and finalisations.

In `Verif.Props.EospacSerialize`.

* `C128_constructed` — The constructor gives an object whose query handles are those of the handle array, with the sizes of the library.
* `C128_serialize_size` — `Serialize` succeeds, writes and returns exactly `SerializedSizeInBytes` bytes, and changes no byte outside the destination.
* `C128_roundtrip` — Build without EOSPAC shared memory: deserialising a copy of the bytes, at any address and in any process, gives an object that answers like the original whatever happens to the buffer afterwards; it consumes exactly the bytes written and writes no memory; its handles are new, different, and the ones its `Finalize` releases; no other table of the process changes.
* `C128_shared_needs_block` — Build with EOSPAC shared memory: without a shared block (the default settings) deserialisation stops the program.
* `C128_roundtrip_shared_root` — Build with EOSPAC shared memory, root of the shared domain: only the block of `SharedMemorySizeInBytes` bytes is written, and the object answers like the original as long as that block is left alone.
* `C128_roundtrip_shared_peer` — Build with EOSPAC shared memory, a peer: nothing is written, and the object answers like the original if the block (possibly mapped at another address) holds what the root put there.
* `C128_bulk` — Build without EOSPAC shared memory: the bulk serialiser brings a whole list of EOSPAC objects to another process, with any settings: each answers like its original, all handles are new and different from each other, and no other table changes.
* `C128_bulk_shared_root` — Build with EOSPAC shared memory: the root's bulk deserialisation, with a block of `SharedMemorySizeInBytes` bytes apart from the buffer, brings over the whole list: only the block is written, and each object answers like its original as long as the block is left alone.
* `C128_released` — In a program that constructs and deserialises EOSPAC objects, makes no device copies and finalises no object twice, no table is destroyed twice; when it has finalised every object, every table ever loaded has been destroyed, once.
* `C128_finalize_twice_violated` — Violated: unlike the Spiner tables (C56), finalising an EOSPAC object a second time destroys its eight handles again.
* `C128_device_copy_violated` — Violated: `GetOnDevice` shares the handles, so finalising both the object and its device copy, as for any other EOS, destroys each table twice.

### C129 Error messages name the EOS and fit their buffer — partial

The message of a query that is not enabled is the fixed text with the name of the EOS in it, null terminated, and building it writes nothing outside its buffer, for every name up to the documented length (44 characters; violated: 43 for the minimum energy).

Over: every name, every content of memory around the buffer, debug and release builds.

In `Verif.Props.Messages`.

* `C129_concatenate` — when both strings and the terminator fit the buffer, concatenation appends the source, terminates the result, and changes nothing else, in particular nothing outside the buffer.
* `C129_debug_stops` — a debug build stops exactly when the result would not fit.
* `C129_message` — the message of a missing entropy is the text, the name and the closing text, inside the buffer, for every name of at most 66 characters; that of a missing minimum energy for every name of at most 43.
* `C129_library_names` — every name the library passes is short enough.
* `C129_name_of_44_violated` — violated: the code says names of 44 characters are allowed. With any such name the message of a missing minimum energy does not fit: a debug build stops with the wrong message, any other writes a null to the byte after the buffer.

### C130 A PTE solve returns a physical state whatever happens — proved

Whatever the equations of state, the linear solver, the tolerances and the outcome (converged, stalled, failed), the arrays a PTE solver returns hold each material's mass, positive volume fractions, a non-negative temperature (common to all materials for RhoT, PT, FixedP), and per material an energy and a pressure that are those of its own EOS at its density and temperature, up to the SMALL guards; PT returns one pressure. Exceptions: RhoT and RhoU may return the pressure handed in if they take no step and the EOS prefers pressure as an input; FixedT leaves the temperature array alone (its temperature is the given one).

Over: every EOS, material count, parameters, linear solver and iteration history of the five solvers; for RhoU, starting guesses with non-zero pressures and non-zero total energy.

In `Verif.Props.PTEFullFixed`, `Verif.Props.PTEFullFixedP`, `Verif.Props.PTEFullPT`, `Verif.Props.PTEFullRhoT`, `Verif.Props.PTEFullRhoU`.

* `C130_fixedT_state` — FixedT: whatever the equations of state, the linear solver, the tolerances and the outcome, every material returns with its mass, a positive volume fraction, and the energy and pressure its own EOS has at its density and the given temperature. The temperature array is as the caller left it.
* `C130_fixedP_state` — FixedP: whatever the equations of state, the linear solver, the tolerances and the outcome, the arrays returned hold a common positive temperature and, for every material, its mass, a positive volume fraction, and the energy and pressure its own EOS has there.
* `C130_pt_state` — PT: whatever the equations of state, the linear solver, the tolerances and the outcome, the arrays returned hold one pressure and one positive temperature; every material's density and energy are those its own EOS gives at that pressure and temperature; and a material with a positive density has kept its mass. The pressure lies above every negative minimum pressure.
* `C130_rhoT_state` — RhoT: whatever the equations of state, the linear solver, the tolerances and the outcome (converged or not), the arrays returned hold a common positive temperature, every material's mass, positive volume fractions that do not overfill the cell (and fill it once a step has been taken), the energy each material's own EOS has there, and its pressure — unless no step was taken and the material's EOS prefers pressure as an input, in which case it may be the pressure handed in.
* `C130_rhoU_state` — RhoU: for equations of state with non-negative temperatures, and a starting guess (`InitBase`) whose pressures are not zero and whose energies do not sum to zero: whatever the linear solver, the tolerances and the outcome, the arrays returned hold every material's mass and a positive volume fraction. Once a step has been taken, temperature and pressure of each material are those of its own EOS at its density and energy (there is one guard `Tn`, the starting temperature, for all). If no step was taken, the temperature is positive, the energy is that of the EOS at density and temperature, and so is the pressure, unless it is the one handed in, for an EOS that prefers pressure.

### C131 A converged PTE solve is an equilibrium of the equations of state — partial

If a PTE solver reports convergence then, evaluated at the returned densities, energies and temperatures, the materials' EOS pressures (and for RhoU temperatures) agree within the tolerance, and the totals the caller prescribed (volume, energy, temperature or pressure) are met within the tolerance.

Over: every EOS, material count, parameters, linear solver and iteration history.

In `Verif.Props.PTEFullFixed`, `Verif.Props.PTEFullFixedP`, `Verif.Props.PTEFullPT`, `Verif.Props.PTEFullRhoT`, `Verif.Props.PTEFullRhoU`, `Verif.Props.PTEFullRhoUViol`, `Verif.Props.PTEFullViol`.

* `C131_fixedT_equilibrium` — FixedT: if the solver reports convergence (not through the slow-convergence exit) the volume fractions fill the given volume within the tolerance, and neighbouring materials' EOS pressures agree within the tolerance.
* `C131_fixedP_equilibrium` — FixedP: if the solver reports convergence (not through the slow-convergence exit) the volume fractions fill the given volume within the tolerance, and every material's EOS pressure is the given one within the tolerance, as an absolute difference.
* `C131_pt_equilibrium` — PT: if the solver reports convergence (not through the slow-convergence exit) the volume fractions fill the given volume and the materials' energies sum to the total, each within its tolerance.
* `C131_rhoT_equilibrium` — RhoT: if the solver reports convergence (and not through the slow-convergence exit), then at the returned densities and temperature the materials' EOS energies sum to the total within the tolerance and — provided a step was taken or no material's EOS prefers pressure — any two materials' EOS pressures agree within twice the tolerance.
* `C131_rhoU_equilibrium_partial` — RhoU: under the same conditions, if the solver reports convergence (not through the slow-convergence exit) then neighbouring materials' returned pressures and temperatures agree within the tolerances (`Tn` is the starting temperature). Missing: that the volume fractions fill the volume and the energies sum to the total; the code does not test that and it fails (`C131_rhoU_violated`).
* `C131_rhoU_violated` — is violated by RhoU, with any pressure guess `q` (for `q ≠ 0` the conditions of `C131_rhoU_equilibrium_partial` are met, see below): two ideal gases with energies shifted by 1000, equal densities and volume fractions, total specific energy -900, default parameters, any linear solver. The solver reports convergence without taking a step; the temperatures are the default 300, at which the energies sum to -700, not -900, and the EOS pressures differ by a factor of two.
* `C131_rhoT_ideal_violated` — is violated by RhoT for equations of state that list pressure among their preferred inputs, such as `IdealGas`: two ideal gases with equal densities and volume fractions, `gamma - 1` of 1 and 2, and zero-initialised pressure and temperature arrays (default parameters, any linear solver). The solver reports convergence without taking a step and returns the zero pressures, while at the returned densities and temperature one EOS pressure is positive and the other twice as large.

### C132 A PTE solve does not depend on what its scratch memory held — partial

Two PTE solves called with the same material arrays, totals, parameters and normalisation temperature give the same status, iteration counts and material arrays, whatever the scratch memory handed to them contained and whatever the solver object's members held before Init.

Over: every EOS, material count, parameters, linear solver, and any two contents of scratch memory and unset members.

In `Verif.Props.PTEScratch`, `Verif.Props.PTEScratchRhoU`, `Verif.Props.PTEScratchViol`.

* `C132_rhoT` — RhoT: two calls that differ only in the old contents of the scratch memory and of the members end alike: the same status, counters and error, and the same six arrays.
* `C132_pt` — PT.
* `C132_fixedT` — FixedT: the constructor sets the temperature; the rest may hold anything.
* `C132_fixedP_partial` — FixedP, as far as it holds: `Init` reads `utotal_scale * uscale`, which nothing has set. If the two objects happen to agree on that product, or the caller has turned the temperature iteration off, the outcome is the same.
* `C132_rhoU` — RhoU: its `Init` moreover saves four arrays and the residual in the memory of the Jacobian.
* `C132_fixedP_violated` — Violation: `Init` of FixedP guesses the temperature with `utotal_scale * uscale`, members neither the constructor nor `Init` has set by then. Two calls that differ only in what those members happened to hold both report convergence, one with temperature 300, the other with more than 900.

### C133 The compensated summation loses only second-order round-off — proved

In binary floating point with rounding to nearest and no overflow, sum_neumaier returns the exact sum of the selected terms up to one rounding of that sum plus at most 3 n^2 u^2 times the sum of absolute values (u the unit round-off, 4 n u <= 1); so up to a million non-negative doubles are summed to a relative error of 2^-52 and integers below 2^53 exactly.

Over: For every array of floating-point numbers, length, offset, skipped index and tie-breaking rule..

In `Verif.Props.FloatSum`.

* `C133_sum_error` — whatever the data, the result differs from the exact sum of the terms (those at `offset, …, offset + n - 1`, without the skipped one) by one rounding of that sum and a term of second order in the round-off.
* `C133_sum_error_simple` — with up to `2^p / 4` terms: the error is at most `u |Σ x| + 3 n² u² Σ |x|`, `u = 2^{-p}`.
* `C133_nonneg_double` — for `double` (53 bits, subnormals included): up to a million terms without cancellation, as for volume fractions or squared residuals, are summed to a relative error of `2^{-52}`.
* `C133_exact_on_grid` — terms on a common grid `2^e` (integers, say) whose absolute values add up to at most `2^p · 2^e` are summed exactly.
* `C133_error_against_exact_model` — the distance of the rounded sum from what the exact-arithmetic models of the solvers use.

### C134 regula_falsi keeps its root near the interval in floating point — partial

With every operation rounded and no overflow or underflow, regula_falsi stops within 1000 iterations and, when the computed residual changes sign over [a,b], reports a root in [a,b] up to the accumulated rounding, (1+5u)^1001-1 times the size of the ends (below 2^-40 of it in double precision), for every function. A run reported as a success ends between two points where the computed residual has opposite signs and whose computed distance is at most 2 xtol or one of whose residuals is at most ytol, or at a point where the computed residual is zero or where the computed secant is one of its own ends. Without rounding it is the regula_falsi of real arithmetic.

Over: For every function, target, guess, interval with non-negative tolerances and rounding..

In `Verif.Props.FloatRootFind`, `Verif.Props.FloatStop`, `Verif.Props.SetBracket`.

* `C134_root_near_interval_partial` — if no operation loses more than a relative error `u ≤ 1/16` (no overflow or underflow), the computed residual changes sign over `[a,b]` and does not vanish exactly at `a` or at the guess, then `regula_falsi` stops within 1000 iterations and the root reported is in `[a,b]` up to `(1+5u)^1001 - 1` times the size of the interval's ends, whatever the function.
* `C134_root_near_interval_double_partial` — for double precision: within `2^{-40}` of the size of the interval's ends.
* `C134_root_at_lower_end_violated` — fails when the function takes the target value exactly at the lower end of the interval, as here at `a = 1.1` (its nearest double): in double precision, whatever the rule for ties, `regula_falsi` on `[1.1, 2]` with tolerances `2^{-30}` reports SUCCESS with the root `-3686895224239692.5`, because `(a * yb) / yb` is not `a`, the test `c == a` misses, and the two residuals no longer differ in sign. The function is non-decreasing and `a` is its exact root.
* `C134_stop_rule` — what the root reported by a run of `regula_falsi` is worth when every operation is rounded (relative error `u < 1`, no overflow or underflow), for any function and any arguments for which the computed residual does not vanish at the lower end of the starting bracket: the root is the rounded midpoint of two points `p`, `q`, and, writing `r(x)` for the computed residual, * `r` changes sign between them, and if the run is reported as a success then their computed distance is at most `2 xtol` or the residual at one of the two is at most `ytol`, or * `p = q` and `r(p) = 0`, or * `p = q` is an end of a pair of points between which `r` changes sign, and the computed secant through that pair, with the values `±r` there after some number of halvings, is that end.
* `C134_exact` — without rounding it is the `regula_falsi` of C08.
* `C134_initial_bracket` — the bracket the rounded `regula_falsi` starts from, as in `C08_initial_bracket`: the samples are those points up to the rounding of the four operations (relative to the distance from `a` for three of them), and the signs are those of the rounded products.

### C135 The robust helpers on machine numbers — partial

On doubles, with rounding, overflow, infinities and NaN: ratio(a,b) is NaN only if an argument is NaN or both are infinite; it is at most 1 in size when |a|<=|b|; it is the correctly rounded a/b for every b that is not tiny; it is finite for every finite a and b; make_positive is at least EPS unless given NaN; make_bounded is strictly inside its interval.

Over: For every pair of machine numbers and every rounding to nearest..

In `Verif.Props.IeeeRobust`.

* `C135_ratio_nan_iff` — on machine numbers `ratio(a,b)` is NaN exactly when an argument is NaN or both are infinite: never for finite arguments, `0/0` included.
* `C135_ratio_le_one` — for finite arguments, `ratio(a,b)` with `|a| ≤ |b|` is finite and at most 1 in size.
* `C135_ratio_is_rounded_quotient` — for a `b` of more than about `4·10^{-291}` the guard changes nothing: `ratio(a,b)` is the correctly rounded `a/b`.
* `C135_ratio_finite_partial` — `ratio` of finite arguments is finite when `|a| ≤ 39`, whatever `b`; and for a larger `a` when `|a| ≤ |b| Ω`.
* `C135_ratio_finite_violated` — fails in one point: `ratio(41, 0)` overflows to infinity, so "robust" does not mean finite.
* `C135_make_positive` — `make_positive` passes NaN on (`std::max(NaN, EPS)` is NaN); every other argument gives at least `EPS`.
* `C135_make_bounded_strict_violated` — fails in another: in floating point `make_bounded` need not be strictly inside the interval. For `vmin = 64` the `EPS` is lost and `make_bounded(0, 64, 128)` is `64`. (In exact arithmetic C06 says strictly inside.)

### C136 The residual PTESolver reports is that of the state it returns — partial

SolverStatus::residual equals half the sum of the squares of what the solver's equilibrium equations leave over when evaluated on the arrays the solver hands back (energies and pressures in units of the solver's energy scale); it is zero exactly when the equilibrium equations hold.

Over: every input state, equation of state, linear solver, parameter set with at least one line-search pass, number of materials, and every way the solve can end, for the five solver classes.

In `Verif.Props.PTEMerit`, `Verif.Props.PTEMeritViol`.

* `C136_pt` — `PTESolverPT`: for every input, equations of state, linear solver and parameters (at least one line-search pass), the residual reported is the merit of the returned volume fractions and energies.
* `C136_rhoT_exclude` — `PTESolverRhoT` told which material to leave out of the unknowns: the residual reported is the merit of the returned energies and pressures, the pressures compared with that material's.
* `C136_rhoT_partial` — `PTESolverRhoT` choosing the left-out material itself: the residual reported is the merit of the returned state with pressures compared with those of some material, so it is right up to a factor `2 n` for every choice of that material, and it is zero exactly when the returned pressures agree and the energies add up.
* `C136_fixedT` — `PTESolverFixedT`: the residual reported is the merit of the returned volume fractions and pressures.
* `C136_fixedP` — `PTESolverFixedP`: the residual reported is the merit of the returned volume fractions and pressures, compared with the pressure asked for.
* `C136_rhoU` — `PTESolverRhoU`: for densities and volume fractions that are positive and do not overfill the cell, the residual reported is the merit of the returned state, temperatures in units of the solver's temperature scale.
* `C136_zero_rhoT` — The RhoT merit is zero exactly when the energies add up and all pressures agree.
* `C136_zero_rhoU` — The RhoU merit is zero exactly when the volumes fill the cell, the energies add up, and all pressures and temperatures agree.
* `C136_rhoT_stale_violated` — is violated by RhoT with default parameters: `Fixup` picks the material of largest volume, recomputes the residual with pressures compared with that material's and does not recompute the norm. Here the residual reported is twice that of the returned state.

### C137 Ideal gas in machine arithmetic — partial

In double precision, with rounding, overflow, infinities and NaN: no ideal gas lookup is negative for any argument; away from underflow and overflow every lookup is the exact value up to a fixed number of roundings (1 for energy and temperature, 2 for the pressure of an energy, 3 of a temperature, 4 and 5 for the bulk modulus); T to e to T and e to T to e return the start up to 2 roundings, density to pressure to density up to 6, pressure to energy to pressure up to 2, both routes to the pressure agree up to 6 and the reference state is consistent; pressure, bulk modulus, temperature and energy are monotone for all machine numbers. Fails: an intermediate overflow gives an infinite or NaN pressure where the exact one is a double; zero pressure and temperature give a NaN density; parameters of zero are accepted and give NaN.

Over: all roundings to nearest (any tie rule), all machine numbers, all parameters.

In `Verif.Props.IeeeIdeal`.

* `C137_never_negative` — the temperature, energy, pressure, bulk modulus and (from pressure and temperature) density of the ideal gas are never negative, for all arguments and parameters, NaN and infinities included; they may be NaN.
* `C137_lookups` — in range, each lookup of the ideal gas is the exact value up to its number of roundings (at most 5).
* `C137_round_trip` — temperature to energy and back, and energy to temperature and back, return the start up to 2 roundings, in range.
* `C137_pressure_routes` — the pressure computed from energy and the pressure computed from the temperature of that energy agree up to 6 roundings.
* `C137_density_round_trip` — density to pressure (at a temperature) and back by `DensityEnergyFromPressureTemperature` returns the density up to 6 roundings, and the returned energy is the one of the temperature.
* `C137_energy_from_pressure` — pressure to energy (at a density) by `InternalEnergyFromDensityPressure` and back returns the pressure up to 2 roundings: the rounded `gm1 ρ` is the same in both.
* `C137_reference` — the reference state of the constructor is consistent: the pressure at the reference density and temperature is the reference pressure up to 6 roundings, the bulk modulus `γ P₀` up to 8, `dpde` is `P₀ / sie₀` up to 4 and `dvdt` is `1 / (ρ₀ T₀)` up to 5.
* `C137_pressure_monotone` — pressure is monotone in density and in energy for all machine numbers with a density that is not negative (energies of any sign, infinities included), as long as neither result is NaN.
* `C137_other_monotone` — the pressure and the bulk modulus as functions of density and temperature, and the bulk modulus as a function of density and energy, are monotone in the same way.
* `C137_temperature_monotone` — temperature is monotone in the energy, and energy in the temperature, for all finite parameters and machine numbers.
* `C137_pressure_nan_iff` — for finite arguments the pressure is NaN exactly when `gm1 ρ` overflows and the energy is zero.
* `C137_overflow_violated` — fails in one point: intermediate overflow. For `gm1 = 2`, `ρ = 2^1023` and `e = 2^-1000` the exact pressure `2^24` is a `double`, but the computed one is infinite; at zero energy it is NaN.
* `C137_cold_density_violated` — fails in another point: at zero pressure and zero temperature, a state of the gas, the density from pressure and temperature is NaN; and at zero temperature and positive pressure it is infinite.
* `C137_zero_parameters_violated` — fails in a third: `CheckParams` accepts `gm1 = 0` and `Cv = 0`, and then temperature and density are NaN or infinite for ordinary states.

### C138 Scale and shift modifiers in machine arithmetic — partial

In double precision, for any wrapped equation of state: a scaled one receives the scaled density up to one rounding and the scaled energy up to two, and exactly when the scale is a power of two; a density and energy it returned come back to the wrapped one up to three roundings. A shifted one receives the difference up to one rounding, monotonically, and exactly when energy and shift share a power of two; a round trip changes an energy by at most 3 2^-53 (|e|+|shift|). Fails: a shift of 2^60 turns temperature 1 into 0 for an ideal gas; the reported density bounds of a scaled one lie outside the wrapped domain by a rounding.

Over: all wrapped equations of state, all roundings to nearest, all finite arguments.

In `Verif.Props.IeeeModifiers`.

* `C138_scaled_lookups` — in range, the equation of state wrapped by `ScaledEOS` is called with the scaled density up to one rounding and the scaled energy up to two, and the energies returned have one more rounding. (The energy lookup passes the density unscaled, see C66.)
* `C138_scaled_bounds` — the density bounds that `ScaledEOS` reports are the wrapped ones over the scale, up to two roundings.
* `C138_scaled_round_trip` — density and energy returned by `ScaledEOS` from pressure and temperature, when used again as arguments, reach the wrapped equation of state as the density and energy it returned, up to three roundings each; the energy per volume is unchanged up to three.
* `C138_scaled_power_of_two` — for a scale that is a power of two, `ScaledEOS` makes no rounding error at all: the wrapped equation of state is called with exactly the scaled density and energy.
* `C138_shifted_lookups` — the energy that `ShiftedEOS` passes on is the exact difference up to one rounding, of any sign and size.
* `C138_shifted_results` — the energies that `ShiftedEOS` returns (from temperature, from pressure and temperature, and the smallest one) are the exact sums up to one rounding; densities, density bounds and the pressure of a temperature are those of the wrapped equation of state.
* `C138_shifted_round_trip` — what a round trip through `ShiftedEOS` does to an energy of the wrapped equation of state: `E` is returned as `E + shift` and reaches it again as a number within `3 · 2^{-53} (|E| + |shift|)`: an absolute error, of the size of the shift.
* `C138_shifted_exact` — no error at all when energy and shift are multiples of a common power of two with a sum that fits: for example integers up to `2^52` in size.
* `C138_shifted_monotone` — the energy passed on is monotone in the energy given, so a monotone temperature stays monotone under a shift.
* `C138_shifted_loses_energy_violated` — fails in one point: a large shift loses the energy. An ideal gas with `Cv = 1` shifted by `2^60`: temperature 1 to energy and back gives temperature 0.
* `C138_scaled_bound_violated` — fails in another: the density bounds that `ScaledEOS` reports are not inside the wrapped domain. With scale 3 and a wrapped minimum of 7, the density at the reported minimum reaches the wrapped equation of state as `7 - 2^{-50}`.

### C139 The example plug-in EOS — partial

For the pressureless Dust plug-in, temperature and energy are inverse, its pressure and heat capacity are consistent with its energy, the temperature is not negative exactly at or above its minimum energy, and FillEos gives the temperature of an energy. Fails: FillEos cannot give the energy of a temperature (it aborts, or returns the energy of a stale temperature), overwrites pressure, bulk modulus and heat capacity unasked, the reference state is consistent only for Cv = 1 and leaves the heat capacity unset, and the entropy is not a potential of the heat capacity.

Over: all heat capacities, states and output sets.

In `Verif.Props.Dust`.

* `C139_lookups` — temperature and energy of `Dust` are inverse to each other for a non-zero heat capacity, independent of the density; the pressure, bulk modulus and Grüneisen parameter are zero and the heat capacity is the one given.
* `C139_consistent` — the heat capacity is the derivative of the energy, and the pressure is consistent with the energy: both sides of `(∂e/∂v)_T = T (∂P/∂T)_v - P` are zero.
* `C139_min_energy` — at energies at or above the minimum that `Dust` reports the temperature is not negative.
* `C139_fill` — `FillEos` asked for the temperature (and not the energy or density) gives the temperature of the energy, and the pressure, bulk modulus and heat capacity of the state; density and energy stay.
* `C139_fill_energy_violated` — fails in one point: `FillEos` never gives the energy of a given temperature: asked for the energy alone it aborts, and asked for energy and temperature (from density and pressure, of which neither follows) it returns the energy of whatever temperature was passed.
* `C139_fill_writes_inputs_violated` — fails in another: `FillEos` writes the pressure, bulk modulus and heat capacity whether asked or not.
* `C139_reference_violated` — fails in a third: the reference state is consistent only for `Cv = 1`, and does not report the heat capacity: the variable of the caller keeps its value.
* `C139_entropy_violated` — fails in a fourth: the entropy is the constant zero, so `T dS = Cv dT` at constant volume does not hold for `Cv ≠ 0`.

### C140 Arrays seen through index maps — proved

Reading or assigning an element of a GenericIndexer, nested to any depth, reads or changes exactly the element of the underlying array that its maps lead to and nothing else; an indexer made from a temporary array works on its own copy and changes no array of the program; a map passed as a variable is read at the time of the access and one passed as a temporary is fixed; filling n elements through maps that do not repeat an element puts the values where the indexer reads them and leaves all other elements alone; indexers that lead to different elements do not disturb each other.

Over: all nestings of indexers, arrays, pointers, maps, elements and values.

In `Verif.Props.GenericIndexer`.

* `C140_read` — reading through an indexer reads the element of the array that its maps lead to, whatever indexers are nested.
* `C140_write` — an assignment through an indexer to an array changes exactly the element its maps lead to, in that array, and nothing else.
* `C140_own` — an indexer made from a temporary array works on its own copy: an assignment through it changes no array of the program.
* `C140_read_after_write` — after `x[i] = v`, `x[j]` is `v` for every `j` that leads to the same element, and unchanged for every other `j`; with an array of its own as well.
* `C140_map_lifetime` — an index map given as a variable is used as it is at the time of the access; one given as a temporary is fixed when the indexer is made.
* `C140_scatter` — filling `n` elements through an indexer whose first `n` elements are different elements of an array `a` puts the values where the indexer reads them and leaves every other element of every array as it was: scatter, and gather again.
* `C140_independent` — two indexers that lead to different elements (for example two materials of one flat array) do not disturb each other.

### C141 Kinetic phase transitions in machine arithmetic — partial

In double precision with NaN and infinities: SortGibbs returns an ordering of all phases in which none is followed by one with a larger Gibbs energy, NaN ones staying in place; when no exponent is NaN every new mass fraction and transfer of SmallStepMFUpdate is finite and not negative and the total mass is kept up to n(n-1) roundings and KPT_MIN_MASS_FRACTION per phase, even if exp overflows; LogMaxTimeStep is never NaN, at most 1 and at most minus the logarithm of each rate that is a number. Fails: an infinite rate makes the recommended step -inf and with it the mass fractions NaN; with a finite step a phase without mass that receives some and has an infinite rate becomes NaN.

Over: all roundings to nearest, all library log and exp with the stated special values, all numbers of phases, masses, rates, orders and previous contents.

In `Verif.Props.IeeeKinetic`, `Verif.Props.IeeeKineticRates`.

* `C141_sort` — on machine numbers, NaN included, `SortGibbs` returns an ordering of all phases in which no phase is followed by one with a larger Gibbs energy; phases whose Gibbs energy is NaN stay where they are and do not spoil the order of the others.
* `C141_mass_fractions` — when no exponent is NaN, every new mass fraction and every transfer is a finite number that is not negative, and the total mass is that of before up to one rounding per addition or subtraction (`n (n - 1)` of them) and to `KPT_MIN_MASS_FRACTION` for each phase but the last. Infinite transfers (`exp` overflowing) are included.
* `C141_exponent` — an exponent is not NaN when the logarithm of the time step plus that of the rate is a number below `+inf`, whatever the mass fraction, a zero one included.
* `C141_max_time_step` — the maximum time step is never NaN, at most `1`, and at most minus the logarithm of every rate that is a number of every phase above the threshold; rates that are NaN are ignored.
* `C141_max_step_finite_violated` — fails: the largest recommended time step can give NaN. For two phases with finite parameters and Gibbs energies whose difference, over the width, squares beyond the largest double, the rate is `+inf`, the recommended step is `-inf`, and with it both mass fractions become NaN.
* `C141_zero_mass_violated` — fails: with a finite time step and mass fractions that sum to one, a phase without mass that receives some and leaves at an infinite rate gets NaN (`+inf` plus `log 0`), and so does the phase it would go to.
* `C141_rates` — the rate stored for the pair `j < k` is, with finite Gibbs energies `gj`, `gk`, prefactor `w` and width `b ≠ 0` and no operation overflowing, `log(w d) + d d` with `d = (gj - gk) / b`, each operation rounded once and the logarithm the library's; it is `-inf` (no transfer) when the two energies are equal; nothing outside the `n (n - 1) / 2` positions is written.

### C142 Root-finder statistics describe the iterations made — proved

The counters a root finder is given hold, after a reset and any sequence of calls, the number of calls that took exactly i iterations in bin i and those that took 14 or more in the last bin; no increment is out of bounds, total() is the number of calls recorded, and a call records nothing only if it never found a bracket (or is a plain bisection). The iteration number recorded is the index of the first iterate at which the method's own stopping rule holds, and the value returned is that iterate.

Over: every sequence of calls, callable, target, guess, bracket and tolerance.

In `Verif.Props.RootCounts`.

* `C142_histogram` — after a reset and any sequence of root-finder calls sharing the counters, no increment was out of bounds, bin `i < 14` holds the number of calls that took exactly `i` iterations, the last bin those that took 14 or more, `total()` is the number of calls that recorded something (plus the `1e-20` it starts from), and memory outside the array is untouched.
* `C142_recorded` — a call records nothing exactly when it is a `bisect` call or a `regula_falsi` call that returns without a root (no bracket found).
* `C142_newton_iterations` — the number a `newton_raphson` call records is the index of the first Newton iterate at which the iteration ends, 100 when there is none before.
* `C142_newton_failed` — a `newton_raphson` call that may end at a bound is reported as a failure exactly when it records 100.
* `C142_secant_iterations` — the number a `secant` call records is the number of secant updates after which the relative change first fell below the tolerance — 1001 when 1000 updates did not — and the value returned is the iterate after those updates.
* `C142_regulaFalsi_failed` — a `regula_falsi` call that found a bracket records a number of at most 1000, and exactly 1000 when it reports failure.

### C143 The example programs do what they say — partial

eos_grid fills entry (j, i) of the table it saves with the pressure at density j and temperature i of logarithmic grids with the requested ends, and touches no other memory; map_pt_space reports for each volume fraction either a marked failure or a temperature inside the search interval around which the mixture energy passes the total, with the pressures and residuals at it; pte_2mat starts the solver from volume fractions that sum to one and densities with the given masses, and its tolerances mean what they say; the two loops of get_sound_speed_press agree for every EOS whose FillEos agrees with its queries; no program reads a missing argument. Fails: the host loop of eos_grid has its limits exchanged, so it is right only for square tables and otherwise overruns the table or saves values from behind the temperature array; map_pt_space draws the map down to temperature -1 when every search fails; pte_2mat, map_pt_space and eos_grid accept command lines too short for what they read.

Over: all grid sizes, EOS functions, masses, energies, volume fractions, array lengths and argument counts.

In `Verif.Props.Examples`.

* `C143_grid_device` — the device loop of `eos_grid` fills entry `(j, i)` of the table with the pressure at density `j` and temperature `i`, and writes nothing outside the table.
* `C143_grid_points` — the grid points run from the requested least to the requested greatest value, equally spaced in the logarithm.
* `C143_grid_saved_square` — with as many densities as temperatures the host loop of `eos_grid` repeats the device loop and the table saved is right.
* `C143_grid_host_in_range_iff` — every access of the host loop is inside its array exactly when there are as many densities as temperatures (the loop limits are exchanged).
* `C143_grid_overrun_violated` — is violated for a table with more temperatures than densities: the host loop writes behind the end of the table.
* `C143_grid_saved_violated` — is violated for a table with more densities than temperatures: what is saved for density number `nT` and the lowest temperature is the pressure at the density before it and at whatever memory holds behind the temperatures.
* `C143_map_row` — a line of `map_pt_space` is either marked as failed (all entries `-1`), or: its temperature is in the search interval, is the centre of an interval inside it over which the mixture's energy passes the requested total, and pressures and residuals are those at that temperature. When the total energy is attained between the end temperatures, the search always ends.
* `C143_map_range` — the temperatures found are all within the grid drawn for the map.
* `C143_map_all_failed_violated` — is violated if the search fails for every volume fraction: the map of residuals is then drawn for temperatures from the materials' minimum down to the mark `-1`.
* `C143_pte_start` — for positive guesses `pte_2mat` starts the solver from volume fractions that are positive and sum to one, and from densities with which each material has the mass given on the command line.
* `C143_pte_tolerances` — with the tolerances of `pte_2mat` the convergence test means: the two pressures agree to one part in `10^10` of the mean pressure and the energies add up to the total to `10^-10` of it; and the relaxed test asks for the same.
* `C143_sound_speed` — the two ways of `get_sound_speed_press` give the same arrays for every EOS whose `FillEos` agrees with its single queries: pressure and `sqrt(bulk modulus / density)` of each cell, at the energy per mass of that cell; nothing behind the last cell is written.
* `C143_arguments_present` — `get_sesame_state` and `get_spiner_bounds` never read an argument that is not there, and reject no command line that has all arguments they read.
* `C143_arguments_missing_violated` — is violated: `pte_2mat`, `map_pt_space` and `eos_grid` accept command lines that lack the arguments of the EOS, and then read past the end of the argument list.

### C144 Stiffened gas in machine arithmetic — partial

In double precision, with rounding, overflow, infinities and NaN: for every argument the temperature, bulk modulus and density are at least SMALL, the pressure at least -Pinf, the energy at least q; at fixed density the energy is monotone in the temperature, and temperature, pressure and bulk modulus in the energy (or temperature), up to the infinities. Away from overflow the energy of a temperature is exact up to 5 roundings; temperature, pressure and bulk modulus of an energy are off by a fixed number of roundings of the terms whose difference they are; density and energy of a pressure and temperature are exact up to 4 and 8 roundings; temperature to energy to temperature changes T by at most 66 roundings of e/Cv. Fails: NaN arguments give ordinary numbers (the floors); where Pinf dominates the temperature is lost altogether (rho = Cv = 1, Pinf = 2^60: T = 1 comes back as SMALL).

Over: all roundings to nearest (any tie rule), all machine numbers, all parameters.

In `Verif.Props.IeeeStiff`.

* `C144_floors` — the floors hold for every argument, NaN and infinities included: the temperature, the bulk modulus and the density are at least `SMALL`, the pressure is at least `-Pinf`, the energy at least `q`.
* `C144_nan_violated` — violated: a NaN argument is not passed on. The temperature of a NaN energy is `SMALL`, its pressure `-Pinf`, and the energy of a NaN temperature is `q`: ordinary numbers, for every gas.
* `C144_monotone` — monotone: at a fixed positive density, the energy does not decrease with the temperature, nor do the temperature, the pressure and the bulk modulus with the energy, in spite of rounding, for all arguments up to the infinities.
* `C144_energy` — the energy of a temperature is exact up to 5 roundings (nothing cancels for `Pinf ≥ 0`, `q ≥ 0`).
* `C144_temperature` — the temperature of an energy above `q`: its error is at most a few roundings of the two numbers whose difference it is, `(e - q) / Cv` and `Pinf / (rho Cv)`, not of the temperature itself.
* `C144_round_trip` — temperature to energy and back: the difference is at most 66 roundings of `e / Cv = T + (Pinf / rho + q) / Cv`, whatever the parameters.
* `C144_pressure_temperature` — the pressure of a density and temperature.
* `C144_pressure_energy` — the pressure of a density and an energy above `q`: floored at `-Pinf`, and otherwise off by a few roundings of the two terms whose difference it is.
* `C144_bulk_modulus` — the bulk modulus of a density and temperature is exact up to 5 roundings; of a density and an energy, up to roundings of the terms whose difference it contains, with the floor `SMALL`.
* `C144_density_energy` — density and energy of a positive pressure and temperature are exact up to 4 and 8 roundings.
* `C144_round_trip_violated` — violated: the temperature is lost where `Pinf` dominates: with `rho = Cv = 1`, `Pinf = 2^60` and `q = 0`, the energy of the temperature 1 is `2^60`, whose temperature is `SMALL`, about `2·10^{-307}`.

### C145 Noble-Abel gas in machine arithmetic — partial

In double precision, with rounding, overflow, infinities and NaN: for every argument temperature, pressure, bulk modulus and density are at least SMALL and the energy at least q; below the packing limit all lookups are monotone in temperature or energy up to the infinities. The energy is exact up to 2 roundings, the temperature up to 4 of (e-q)/Cv, T to e to T up to 10 roundings of T + q/Cv; pressure, bulk modulus and Grueneisen parameter up to 18, 36 and 6 roundings divided by the free volume 1 - b rho; density of a pressure and temperature up to 4. Fails: NaN arguments give ordinary numbers; beyond the packing limit the pressure is SMALL.

Over: all roundings to nearest (any tie rule), all machine numbers, all parameters.

In `Verif.Props.IeeeNoble`.

* `C145_floors` — the floors hold for every argument, NaN and infinities included: temperature, pressure, bulk modulus and density are at least `SMALL`, the energy at least `q`.
* `C145_nan_violated` — violated: a NaN energy has the temperature, pressure and bulk modulus `SMALL`, a NaN temperature the energy `q`.
* `C145_monotone` — monotone: at a fixed density with `b rho ≤ 1`, the energy does not decrease with the temperature, nor do temperature, pressure and bulk modulus with the energy, nor pressure and bulk modulus with the temperature, for all arguments up to the infinities.
* `C145_energy_temperature` — energy and temperature lookups: the energy is exact up to 2 roundings, the temperature up to 4 of `(e - q) / Cv`.
* `C145_round_trip` — temperature to energy and back: within 10 roundings of `T + q / Cv`.
* `C145_pressure` — the pressure and the bulk modulus of a temperature or an energy: up to a number of roundings divided by the free volume `1 - b rho`: full accuracy in a dilute gas, less near the packing limit.
* `C145_bulk_modulus` — the bulk modulus and the Grüneisen parameter likewise.
* `C145_density_energy` — density and energy of a positive pressure and temperature are exact up to 4 and 2 roundings (nothing cancels).
* `C145_overpacked_violated` — violated: beyond the packing limit the pressure is not large but `SMALL`: for `b = 1` and any finite density of 2 or more, whatever the positive temperature.

### C146 The root finders on machine numbers — partial

On double-precision numbers with rounding, overflow, infinities and NaN, for every function, also one returning NaN or infinities: regula_falsi stops within 1000 iterations if xtol is not negative; a success of regula_falsi, newton_raphson or findRoot means that the computed stopping test held at the returned point (or, for regula_falsi, that it collapsed on a zero or on its own secant), and the roots of newton_raphson and findRoot lie in the bounds; where no operation rounds or overflows (and no divisor vanishes) the finders return exactly what they return in real arithmetic. Fails: regula_falsi never stops for a negative xtol, and reports success where the function is NaN or where the product of the end residuals underflows; findRoot reports success for a function that is NaN everywhere, or NaN at the root; newton_raphson fails for a zero target even at an exact root, and with fail_on_bound_root = false returns an infinite root as a success.

Over: all functions on machine numbers, all machine-number arguments, all roundings to nearest.

In `Verif.Props.IeeeBisectSpacing`, `Verif.Props.IeeeRootFind`, `Verif.Props.IeeeRootFindExact`.

* `C146_bisect_spacing_violated` — violated: bisection cannot meet an absolute tolerance finer than the spacing of doubles. If the bracket lies at or above `2^k`, the tolerance is at most `2^(k-52)`, and the function changes sign but is not exactly on target at any double of the bracket, `bisect` reports FAIL, after all its 1000 halvings — although the bracket is as narrow as two neighbouring doubles allow.
* `C146_bisect_dense_violated` — violated: with the tolerance the library uses for "density from pressure and temperature", `10` epsilons, this is the case for every density of at least 16 (gold, tungsten, uranium in g/cm³; everything in kg/m³): whatever the number of halvings, the loop does not find its bracket narrow enough.
* `C146_regula_falsi_terminates` — `regula_falsi` stops within 1000 iterations whatever the function returns, NaN and infinities included, and whatever the other arguments are, as long as the tolerance in `x` is not negative.
* `C146_regula_falsi_hangs_violated` — is violated for a negative tolerance: `regula_falsi` on `f(x) = x` between `0` and `1` never stops. (When the secant point is an end of the interval the pass is not counted.)
* `C146_regula_falsi_nan_violated` — is violated: a NaN is taken for a root. With values `-1` at `0`, `1` at `1` and NaN at `1/2`, `regula_falsi` reports SUCCESS and the root `1/2`.
* `C146_regula_falsi_underflow_violated` — is violated: residuals whose product underflows pass for a sign change. For the constant residual `2^-1000`, which has no root, `regula_falsi` between `0` and `1` reports SUCCESS and the root `+inf`.
* `C146_regula_falsi_stop_rule` — what the root reported by `regula_falsi` is worth on machine numbers, for any function, also one that returns NaN or infinities, and any arguments with a tolerance that is not negative. The root is the computed midpoint of two points `p`, `q`, and, with `r(x)` the computed residual, either a success means that the computed distance of the two is not above `2 xtol` or the residual at one of them is not above `ytol`; or `p = q` and `r(p)` is zero or NaN, or `p` is the computed secant point of a pair of which it is an end, with the values `±r` there after some number of halvings. (Not above: at most, or not comparable.)
* `C146_findRoot_success` — whatever the function returns, NaN and infinities included, a root that `findRoot` reports as a success lies in `[xmin, xmax]` (and so is not NaN), and either the relative error there is below `ytol` (at an end of the interval), or it is not above `ytol` (secant), or the root is the computed midpoint of two points whose computed distance is below `xtol` (bisection).
* `C146_findRoot_nan_violated` — is violated by a function without values: `findRoot` on a function that is NaN everywhere reports success, for every target.
* `C146_findRoot_nan_at_root_violated` — is violated: a function with values everywhere the iteration looks except at the point where it ends. The last change is below the tolerance, the error there is NaN, and `findRoot` reports success.
* `C146_newton_success` — what a successful `newton_raphson` certifies on machine numbers (default `fail_on_bound_root`, a function that is NaN at NaN): the computed error is below the computed `|ytol * ytarget|`, and the root is the guess or lies within the bounds.
* `C146_newton_zero_target_violated` — is violated for a zero target: the error is compared with `|ytol * ytarget| = 0`, so `newton_raphson` fails even if it starts at an exact root.
* `C146_newton_flat_violated` — is violated where the slope vanishes: with `fail_on_bound_root = false`, `newton_raphson` started at its upper bound reports success with the root `+inf`.
* `C146_regula_falsi_exact` — with exact arithmetic and a number range that is large enough for the run, `regula_falsi` on machine numbers is the `regula_falsi` of C08, for every injective function: same status, same root.
* `C146_newton_exact` — the same for `newton_raphson` (C09) and functions with a derivative that does not vanish.
* `C146_findRoot_exact` — the same for `findRoot` (C10, C11): with exact arithmetic and no overflow, for every injective function and positive tolerances, the machine-number `findRoot` is the exact one, whatever the output argument held before.

### C147 The PTE iteration on machine numbers — partial

On double-precision numbers with rounding, overflow, infinities and NaN: the PTE driver stops within nmat * pte_max_iter_per_mat iterations whatever NaN or infinity the EOS returns; a converged result without the slow-convergence flag passed the convergence test, and one with it had passed the looser test before its last step; a passed convergence test means that the quantities it looks at are finite (energies and, with two or more materials, pressures for RhoT; volume fractions and energies for PT; volume fractions and pressures for FixedT and FixedP; pressures and temperatures for RhoU); the step fraction of the line search for finite errors is finite and between 1/4 - 2^-51 and 1 + 2^-51; where nothing is rounded and nothing overflows, residuals, tests and driver are the exact ones. Fails: RhoU's test passes with NaN volume fractions and energies; RhoT and FixedT pass with a NaN pressure for one material; a full step with a NaN error, any step after a NaN error, and a NaN step limit are accepted unchecked; an infinite full-step error makes the step fraction NaN; with the default parameters the driver can report convergence of a NaN state reached in its last iteration.

Over: every rounding to nearest, EOS (NaN and infinities included), parameter set, number of materials and start.

In `Verif.Props.IeeePTE`, `Verif.Props.IeeePTEDriver`, `Verif.Props.IeeePTEExact`, `Verif.Props.IeeeParabola`.

* `C147_rhoT_check_finite` — RhoT: a test that passes, with any tolerances, means that every energy is a finite number and, with two or more materials, that every pressure is.
* `C147_pt_check_finite` — PT: a test that passes means that every volume fraction and every energy is a finite number.
* `C147_fixedT_check_finite` — FixedT: a test that passes means that every volume fraction is a finite number and, with two or more materials, that every pressure is.
* `C147_fixedP_check_finite` — FixedP: a test that passes means that every volume fraction and every pressure is a finite number (the energy scale is not negative: `mixed_cell_models.hpp:1760` makes it at least `1e-14`).
* `C147_rhoU_check_finite_partial` — RhoU: with two or more materials a test that passes means that every pressure and every temperature is a finite number. Volume fractions and energies are not looked at (`C147_rhoU_check_nan_violated`).
* `C147_rhoU_check_nan_violated` — is violated for RhoU: the test with the default tolerances passes with every volume fraction and every energy NaN, as long as pressures and temperatures agree.
* `C147_single_material_nan_violated` — is violated for one material: RhoT and FixedT do not look at its pressure at all, which may be NaN.
* `C147_norm_nan` — the residual norm of `ResidualNorm` is NaN as soon as one residual is not finite or its square overflows: the compensated sum turns an overflow into NaN.
* `C147_driver_bounded` — whatever the arithmetic does (NaN and infinities included), the driver stops after at most `nmat * pte_max_iter_per_mat` linear solves and `2 + line_search_max_iter` trial updates for each.
* `C147_driver_converged` — what `converged` means, whatever the arithmetic does. Without the slow-convergence flag the returned state passed the convergence test (before `Fixup` and `Finalize`). With the flag, the state before the last update was acceptable, and the update itself was not tested: either its error exceeded `pte_slow_convergence_thresh` times the old one, or it was the last update allowed.
* `C147_nan_step_accepted_violated` — is violated: a full step whose error is NaN — by `C147_norm_nan` also one whose residual overflows — is accepted without backtracking, whatever the old error was.
* `C147_nan_old_error_violated` — is violated: a NaN old error accepts every full step.
* `C147_nan_scale_violated` — is violated: a step limit of NaN from `ScaleDx` is taken for "no limit": `std::min(1.0, NaN)` is 1.
* `C147_last_iteration_nan_violated` — is violated: with the default parameters, in double precision with any rounding to nearest, the driver can report `converged` with a NaN residual and a state that is not even acceptable: the update of the last allowed iteration is never looked at.
* `C147_residuals_exact` — with no rounding and no overflow the residuals and their norm are the exact ones.
* `C147_checks_exact` — with no rounding and no overflow the convergence tests are the exact ones (the compensated sum of squares of RhoT is not negative in exact arithmetic).
* `C147_driver_exact` — with no rounding and no overflow the driver on machine numbers is the exact one, for every solver, parameter set and start: for all large enough `Ω` the status and the final state are the same.
* `C147_parabola_range` — whenever the line search fits its parabola to finite errors, the step fraction is a finite number between `1/4 - 2^-51` and `3/4` — overflow of the intermediate results included — and not below `1/4` unless the full step's error is more than four times the half step's.
* `C147_parabola_inf_violated` — is violated by an infinite error: if the full step's error is `+inf`, the half step being an improvement, the step fraction is NaN.

### C148 The tabulated ideal gas is an ideal gas — partial

A file written by utils/scripts/make_tabulated_ideal_sc.py with any adiabatic index above one, mean molecular weight, grid sizes (two or more) and ranges, read by StellarCollapse with or without its median filter (true logarithms), is an ideal gas at every positive density and temperature and every electron fraction, also outside the range of the table: P = rho k T/mu, e = k T/(mu (gamma-1)), cv = k/(mu (gamma-1)), bulk modulus gamma P (floors apart), with k the reader's own MeV-to-kelvin conversion, within 2e-6 of the script's Boltzmann constant. Temperature from energy is right to 2e-14 in log10 inside the table and clamped to its ends outside; density and energy from pressure and temperature are right for densities of the table whatever positive density comes in; the Gruneisen parameter is never below gamma-1 and exceeds it by at most two grid spacings; the composition is Ye protons and 1-Ye neutrons. Fails: the entropy read is P rho^-gamma, not the entropy of the gas.

Over: all script arguments with gamma > 1, all table sizes, all positive densities and temperatures, all electron fractions and caches.

In `Verif.Props.Table.IdealScript`.

* `C148_ideal_gas` — read with exact logarithms, with or without the median filter, the table of `make_tabulated_ideal_sc.py` is an ideal gas at every positive density and temperature and every electron fraction, inside the range of the table or not: `P = rho kT/mu`, `e = kT/(mu (gam - 1))`, `cv = k/(mu (gam - 1))` and the bulk modulus `gam P`, `k` being one MeV over the reader's number of kelvin per MeV. Any table sizes.
* `C148_boltzmann` — the reader's Boltzmann constant agrees with the script's to two parts in a million.
* `C148_temperature` — temperature from density and energy. With `T` the temperature of the ideal gas at this energy, the answer is `T` to `2e-14` in `log10` if `T` lies in the table, and the nearer end of the table otherwise, whatever the lambda cache holds.
* `C148_density` — density and energy from pressure and temperature. If the density of the ideal gas at this state lies in the table, the density returned is it to `2e-14` in `log10` and the energy is exactly that of the gas, whatever positive density comes in.
* `C148_composition` — the composition is what the script says at every state: neutrons and protons only, `Xp = Ye`, `Xn = 1 - Ye`, so the fractions sum to one; mean mass and charge numbers are one.
* `C148_gruneisen` — the Gruneisen parameter at densities of the table is never below that of the gas, `gam - 1`, and exceeds it at most by one spacing of the file's and one of the reader's density grid (ten to the power of it), apart from the guard `rho / (rho + EPS)` in the code.
* `C148_entropy_violated` — the entropy in the file is `P rho^-gam`, not the entropy of the gas. With the default arguments the entropy read rises by more than a billion times `cv ln(T2/T1)`, the entropy change of the gas, from the lowest to the highest temperature of the table.

### C149 A sesame table read by density and temperature says what the file says — partial

After SpinerEOSDependsRhoT is constructed from any well-formed file: at the file's grid points the queries return the file's pressure, energy and heat capacity and the bulk modulus of its derivatives; the extrapolation above the table starts from the file's last isotherm and below the cold curve the coefficients are those of the coldest isotherm; energy and temperature, and pressure and density, are inverse to each other on the table when the file's entries rise; the bulk modulus is positive and no pressure is below MinimumPressure(); the bounds reported are those of the table; the reference state, with its expansion coefficient, is a state of the EOS inside the table (fails for the expansion coefficient, which has the slope of the pressure at constant energy); the mass fractions are as many as the file's phases, add up to one and lie between zero and one; and the mass fraction queries write only to the lambda cells the class asks for.

Over: all files (any piecewise grids and entries), all densities, temperatures, energies, pressures, all cache contents.

In `Verif.Props.Table.SpinerRhoTLoad`.

* `C149_top` — at and above the top of the table. The energy at the highest temperature is the file's (interpolated in density) on its last isotherm, and from there rises linearly with the heat capacity of that isotherm, which is the heat capacity reported (above the floor); the pressure above which the inversion of pressure reports the highest temperature is that of the last isotherm.
* `C149_points` — at the points of the file. For a density and temperature whose logs are a grid point (inside the soft margins of the temperature range) pressure and energy are the file's entries, the heat capacity is the entry or the floor, and the bulk modulus is `rho dP/drho|_e + (P / rho) dP/de` of the entries where `dP/de > 0` and that is at least `robust::EPS`.
* `C149_temperature_round_trip` — energy and temperature are inverse to each other on the table. If the energies in the file rise with temperature at rates between `s` and `S` and the root finder's iterations suffice for `S / s`, then at every density of the file's range and every temperature on the table, the temperature found from the energy has a log within `max thr (2 thr / s)` of the log of the temperature, whatever the cache holds.
* `C149_density_round_trip` — pressure and density are inverse to each other on the isotherms of the table. If the pressures in the file rise with density at rates between `s` and `S` and the iterations suffice, then at every temperature inside the range and every density between that of least pressure and the highest, the density found from pressure and temperature has a log within `max thr (2 thr / s)` of the log of the density.
* `C149_cold` — below the cold curve. In a file whose energies rise with temperature the constructor's search for the critical temperature (see C89) ends at the lowest one, so that below the cold curve temperature is the lowest of the table, and heat capacity, bulk modulus and Grüneisen coefficient are, at the densities of the file, those of the coldest isotherm.
* `C149_bulk_positive` — on a loaded table the bulk modulus by density and energy is at least `robust::EPS` (positive), at every density of the range and every energy from the lowest isotherm up to the last, although that query has no floor (`C88_bulk_by_energy_violated`); and so below the cold curve, where the critical temperatures found at loading are on the table.
* `C149_minimum_pressure` — no pressure of the table is below `MinimumPressure()`: by density and temperature, and by density and energy from the lowest isotherm up. Without the vapour-dome option that minimum is not positive.
* `C149_reference` — the reference state. Its density and temperature are the normal density of the file and room temperature if their logs are inside the table, else those at the middle of the log range; and in the first case energy, pressure, heat capacity (above the floor) and bulk modulus are what the queries by density and temperature return there, and `dP/de` is `rho` times the Grüneisen coefficient.
* `C149_reference_middle` — otherwise the reference state is the middle of the log ranges, which is inside the table, and the values reported are the table's there.
* `C149_expansion_iff` — the expansion coefficient of the reference state is `dP/de · cv / (rho² · slope)` with the file's slope of the pressure at constant energy. The thermodynamic value has the slope at constant temperature, `dP/drho|_e + dP/de · de/drho|_T`; the two agree exactly if `de/drho|_T` of the file is zero there.
* `C149_bounds` — the bounds reported. A density from `MinimumDensity` on is above the lower end of the table, one (above minus the offset) is not above the upper end exactly if it is at most `MaximumDensity` less the `eps` of the log, and a temperature from `MinimumTemperature` on is above the lower end.
* `C149_mass_fractions` — mass fractions. There are as many as the file has phases, and they add up to one, by temperature and by energy, at any density, temperature and energy, inside the table or not, whatever the cache holds. On the table (by temperature; by energy from the lowest isotherm up, and below the cold curve) each lies between zero and one. Without phase data the answer is one phase with fraction one.
* `C149_fractions_above_violated` — fails above the table: the fractions by energy are extrapolated with the temperature, so that (with any file whose fractions vary along the isochore, here `demo`) at every energy above the last isotherm one fraction is negative and one above one.
* `C149_lambda_cells_violated` — fails for the variant that writes to `lambda`: phase `n` goes to cell `2 + n`, beyond the two cells that the class asks for (`nlambda()`), and there is always at least one, so that an array of `nlambda()` cells is overrun.

### C150 From EOSPAC through sesame2spiner and the file to the EOS — proved

Every material that sesame2spiner writes (any number of materials with distinct numbers and names), loaded into SpinerEOSDependsRhoT by number or name, whole or part, answers at the points of the table with what EOSPAC said there in cgs units: pressure, energy, heat capacity and mass fractions, exactly where the log of the argument is the grid point and within the table's rates times the library's shift of the log at the point itself; where EOSPAC's derivatives are consistent, the isentropic bulk modulus and the Grueneisen coefficient are those of EOSPAC; the least energy and the pressure below it are EOSPAC's cold curve; the bounds are the first and last points; and from EOSPAC's energy at a point the EOS finds that point's temperature to the tolerance.

Over: all EOSPAC libraries, all lists of materials, all grids and grid points, all cache contents.

In `Verif.Props.Tools.Sp5Eos`.

* `C150_points` — a material loaded from a file of `sesame2spiner`, by number or name, whole or part, answers at the points of the table (less the `eps` that the library adds before it takes the logarithm) with what EOSPAC says there, in cgs units: pressure, energy, heat capacity (above the floor), mass fractions.
* `C150_derivatives` — the derivatives. Where EOSPAC's derivatives of the temperature are those of its energy inverted, energy and pressure rise with temperature and the isentropic bulk modulus is not below the floor, the bulk modulus reported is the isentropic one, `rho dP/drho|_T + (dP/dT / de/dT) (P / rho - rho de/drho|_T)`, in cgs units, and the Grüneisen coefficient is `dP/dT / (rho de/dT)`.
* `C150_cold` — the cold curve and the bounds. At the densities of the table the least energy is EOSPAC's cold energy, and at energies not above it (and not near the highest isotherm) the pressure is EOSPAC's cold pressure and the temperature the lowest of the table. The bounds reported are the first and last points.
* `C150_temperature` — temperature from energy. If EOSPAC's energies at the points of the table rise with the log temperature at rates between `a` and `b` (in cgs units) and the iterations suffice, then the temperature found from EOSPAC's energy at a point inside the table has a log within `max thr (2 thr / a)` of the log of that point's temperature, whatever the cache holds.
* `C150_near_points` — at the very points of the table, where the library's `eps` moves the logs: pressure and energy differ from EOSPAC's by at most the largest rates of the table per unit of log density and log temperature times those shifts.

### C151 From EOSPAC through sesame2spiner and the file to the EOS by density and energy — partial

Every material that sesame2spiner writes, loaded into SpinerEOSDependsRhoSie by number or name, whole or part, answers at the points of its two tables with what EOSPAC said there in cgs units: by temperature pressure, energy, heat capacity and mass fractions, by energy temperature and pressure, and, where EOSPAC's derivatives are consistent, heat capacity, isentropic bulk modulus and Grueneisen coefficient by either; exactly where the log of the argument is the grid point, within the table's rates times the library's shift of the log at the point itself. Between two energies of the table the temperature is between EOSPAC's at these. The least energy is EOSPAC's cold curve, the bounds are the first and last points, the reference state is what the queries say at the normal density and room temperature, and above the table the density from pressure is the linear extrapolation. This should hold with every energy transform; it fails for ShiftTransform, since the tables are read at the transformed energy but written by energy.

Over: all EOSPAC libraries, all lists of materials, all grids and grid points, all energies inside the table.

In `Verif.Props.Tools.Sp5EosE`.

* `C151_by_temperature` — a material loaded from a file of `sesame2spiner`, by number or name, whole or part, with any energy transform, answers by density and temperature at the points of the table (less the `eps` that the library adds before it takes the logarithm) with what EOSPAC says there, in cgs units: pressure, energy, heat capacity (the inverse of EOSPAC's `dT/de`), mass fractions.
* `C151_derivatives` — the derivatives by density and temperature. Where EOSPAC's derivatives of the temperature are those of its energy inverted, energy and pressure rise with temperature and the isentropic bulk modulus is not below the floor, the bulk modulus is the isentropic one in cgs units, the Grüneisen coefficient is `dP/dT / (rho de/dT)` and the heat capacity `de/dT`.
* `C151_by_energy` — by density and energy, with no energy transform (`SpinerEOSDependsRhoSie`), at the energies of the table: temperature and pressure are EOSPAC's, in cgs units, and under the conditions of `C151_derivatives` at the temperature found so are heat capacity, bulk modulus and Grüneisen coefficient.
* `C151_cold` — the cold curve and the bounds. At the densities of the table the least energy is EOSPAC's cold energy; the bounds are the first and last points. (Unlike `SpinerEOSDependsRhoT`, a first point below zero is reported as it is.)
* `C151_cell` — between the points. If EOSPAC's temperature does not fall with energy, then at a density of the table the temperature reported for an energy between two neighbouring energies of the table is, like EOSPAC's own, between EOSPAC's temperatures at these two.
* `C151_near_points` — at the very points of the table, where the library's `eps` moves the logs: pressure and energy by temperature, pressure and temperature by energy differ from EOSPAC's by at most the largest rates of the table per unit of the logs times those shifts.
* `C151_density_above` — density from pressure and temperature above the table. At a temperature of the table where the pressure of the highest density rises with density at constant energy, a pressure above EOSPAC's at the highest density gives, with success reported, the density of the linear extrapolation (more by the `eps` of the log) — along the slope at constant energy, `dP/drho|_T + dT/drho|_e dP/dT`.
* `C151_shift_violated` — does not hold for the classes with an energy transform: the tables by energy that `sesame2spiner` writes are by energy, but they are read at the transformed energy. With `ShiftTransform`, the temperature reported for EOSPAC's energy `e` above the cold curve is EOSPAC's temperature at `e` less the cold energy: below EOSPAC's own, if the temperature rises with energy and the cold energy is positive.
* `C151_reference` — the reference state at a normal density and room temperature inside the table: density and temperature asked for, and what the queries say there; the coefficient `dvdt` is `dPdE cv / (rho^2 dPdRho)` of the tables there.

### C152 A call of get_sg_eos answers the listed cells and nothing else — partial

get_sg_eos computes each listed cell from that cell's inputs only and changes no other cell, whatever the schedule, the number of threads, the order of the list, what scratch memory held and whether the device has its own memory; repeating the call changes nothing; only EOS named by the caller are used; exactly the documented modes are accepted; failures are reported in the return value.

Over: For all arrays, offset lists, EOS, PTE solver results, modes, interleavings and device kinds..

In `Verif.Props.CInterfaceCall`.

* `C152_row_irrelevant` — the answers of one cell do not depend on what the scratch row held: a cell processed after another one on the same row gets what it would get alone. Some material must take part (see `C152_no_material_violated`).
* `C152_call` — one call answers the cells of the list, each as if it were processed alone on a fresh row, and changes no other cell, whatever the schedule of the loop, the number of tokens, what the scratch memory held, and whether the device has its own memory (where only some arrays are copied back). Cells must be listed once and the mass fractions of a listed cell must not sum to zero.
* `C152_order` — the order in which cells are listed, the number of tokens, the schedule and the kind of memory make no difference: two calls on the same arrays listing the same cells leave the same arrays.
* `C152_repeat` — a call can be repeated: once the cells are answered, another call in the same mode for any of them changes nothing (the inputs are still there, the outputs are recomputed to the same values and the recorded maximum pressure stays).
* `C152_modes` — the modes: exactly the five documented numbers are accepted; 0 and 1 are the same mode.
* `C152_eos_range` — only EOS in the copied part of the EOS array are used: if two arrays of EOS agree on the numbers `0 ≤ i < max eos_offsets`, the answers are the same. (The PTE solver's own use of the EOS is through the same numbers.)
* `C152_no_material_violated` — is violated when no material is above the cutoff (two materials of equal mass, cutoff 1/2): the energy reported in (density, temperature) mode is computed from whatever density the scratch memory held.
* `C152_return_violated` — is violated by the return value, announced as the number of failures: it is zero even when the PTE solve of the only cell did not converge.
* `C152_no_kokkos_violated` — is violated in a build without Kokkos: a call returns zero, as for success, and computes nothing. Cell 1 has pressure 0 before and after, although its material's pressure at the given density and energy is 1.

### C153 Construction stops on unusable parameters and only on those — partial

An EOS object, plain or inside any stack of modifiers, is constructed if its parameters are usable (finite, positive where the EOS divides by them or takes a logarithm, a scale other than zero, a ramp with different slopes, ...), and otherwise the constructor stops the program with a message, so that an object in hand is ready for use; a modifier also checks everything beneath it. The converse half fails: zero specific heats and Gruneisen parameters are accepted, NaN passes the tests of some models, one model's constructors never run their check, some tests exist in debug builds only, and one modifier has no check.

Over: all parameter values including NaN and infinities, all models and all finite stacks of modifiers, debug and release builds, every rounding to nearest.

In `Verif.Props.CheckParams`.

* `C153_accepts_iff` — part: for each analytic equation of state, the parameters its constructor accepts in a release build, in terms of which of them are zero or above (`FromZero`), above zero (`AboveZero`; both rule out NaN) or not known to be negative (`FromZeroOrNaN`). The atomic mass and number must be above zero in all cases (`Gruneisen` apart: see C153_gruneisen_violated).
* `C153_debug_tests` — part: what a debug build tests in addition: the exponents of `JWL`, and the parameters of the two Davis equations of state. Everything else is tested in both builds.
* `C153_never_rejects_usable` — part: usable parameters are never rejected: an object whose parameters are all usable, however many modifiers are stacked, is constructed, in debug and in release builds.
* `C153_ready_is_enough` — part: what "usable" is good for: with usable parameters the four gases satisfy the conditions under which their thermodynamic properties are proved (C36 to C39).
* `C153_accepted_gas_partial` — part: for `CarnahanStarling` with finite parameters and a positive reference state, construction succeeds exactly when the parameters are those its thermodynamic properties need; for `IdealGas` and `NobleAbel` it succeeds with a zero in addition (and for `StiffGas`, whatever the stiffness pressure).
* `C153_short_ideal` — part: the short constructor of `IdealGas` (which computes the reference density of the entropy) accepts exactly the finite parameters that are zero or above.
* `C153_modifier_checks_inside` — part: a modifier checks everything beneath it: an object whose outermost part is a shift, scale, ramp, relativistic or unit-system modifier is only constructed if `CheckParams` of every object inside it succeeds, at any depth (for stacks on which `CheckParams` can be called at all, `hasCheck`).
* `C153_modifier_iff` — part: what each modifier's constructor asks for on top of the object it wraps (which must have been constructed and pass its own check): a shift other than NaN; a scale that is a finite number other than zero (an infinite scale is rejected because its inverse is zero); a ramp with positive density and slope, second slope zero or above and different, and a middle other than NaN; a speed of light above zero whose square is above zero; three units above zero.
* `C153_zero_accepted_violated` — violated part: zeros are accepted where the EOS divides by them: an ideal or stiffened gas of zero specific heat is constructed, though it is not usable, and the ideal gas then returns an infinite temperature for every positive energy.
* `C153_nan_accepted_violated` — violated part: parameters that are not numbers are accepted: all of those `StiffGas` does not test, and all tested parameters of `MGUsup`, `PowerMG` and `Vinet` (whose tests have the form "stop if negative", which NaN is not).
* `C153_gruneisen_violated` — violated part: `Gruneisen` is constructed with any parameters whatever, also inside `ZSplit`; its own `CheckParams` would refuse a NaN or negative density, and does as soon as another modifier is applied.
* `C153_release_violated` — violated part: in a release build a negative density or exponent is accepted where a debug build stops.
* `C153_infinite_inverse_violated` — violated part: a scale may be accepted although its inverse is infinite, and a speed of light although its square is.
* `C153_floored_violated` — violated part: `FlooredEnergy` has no `CheckParams`, and neither does any object that contains one, however deep.

### C154 An EOS built from C, Fortran or Python has the parameters given under their documented names — proved

Whether an EOS is built with the C++ constructor, an init_sg_* function of the C interface (with or without modifier arrays), its Fortran counterpart or the Python class, and whether arguments are passed by position or (Fortran, Python) partly by keyword in any order, every documented parameter of the resulting object has the value given under its name, and parameters the interface does not take have their documented defaults; a call with too many, unknown, repeated or missing arguments is an error.

Over: all 13 EOS types of the C interface, all parameter values, all splits into positional and keyword arguments and all keyword orders.

In `Verif.Props.Construct`.

* `C154_cpp` — part: the C++ constructors take their parameters in the documented order: with all of them given by position every parameter gets the value of its name.
* `C154_c` — part: the C initialisers: with the arguments in the order of the C function, every documented parameter gets the value of its name (parameters the function does not take have their documented default), in the object stored and in the one the ramp parameters are computed from; the overload without modifiers does the same.
* `C154_fortran` — part: from Fortran: with the first `p` arguments by position and the rest by keyword, in any order and in upper or lower case, every documented parameter gets the value given under its name, and the same holds for the object in C.
* `C154_python` — part: from Python: with the first `p` arguments by position and the rest by keyword, in any order, every documented parameter gets the value given under its name; parameters without a Python argument have their documented default (the table of all components, for instance).
* `C154_python_defaults` — part: an omitted trailing Python argument takes its documented default.
* `C154_wrong_calls` — part: a wrong call is an error, not another EOS: a call is refused if it gives more arguments than there are parameters, a keyword that is not a parameter or is already given, or the same keyword twice; and if a parameter without a default is missing.

### C155 A Variant behaves as the EOS it holds — proved

Every scalar call of a Variant is the held EOS's function of the same name with the same arguments in the same order, an omitted lambda being a null pointer. Every array call, written in any of the supported ways (with or without execution space, scratch memory and lambdas; raw pointers or other arrays; output equal to an input), resolves to exactly one overload and gives element i of the output the held EOS's scalar answer for elements i of the inputs and lambda i, for every i below num, changing nothing else; the same for the minimum energy and FillEos. A Variant holds the EOS last assigned: IsType, get and the functor evaluators agree on it.

Over: all held EOS, all functions, all call styles, all lengths (also zero or negative), arrays, lambdas and memory contents.

In `Verif.Props.VariantCall`.

* `C155_array` — an array call of a Variant, written in any of the supported ways (with or without execution space, scratch memory and lambdas; raw pointers or other arrays; the output may also be one of the inputs), gives element `i` of the output the held EOS's scalar answer for elements `i` of the inputs, for every `i` below `num`, and changes nothing else. (The held class's own raw-pointer code, if any, is assumed to agree with its scalar calls: that is C50.)
* `C155_minimum_energy` — the same for the array call of `MinInternalEnergyFromDensity`.
* `C155_fill` — an array call of `FillEos` through a Variant: for every `i` below `num` the six elements `i` become what the held EOS's scalar `FillEos` makes of them (with the flags and the lambda given), and nothing else changes. The six arrays are different.
* `C155_class` — the same array calls on the EOS class itself (not in a Variant), with lambdas, do the same.
* `C155_class_needs_lambdas` — an array call without lambdas is accepted on a Variant but not on the EOS class it holds: no overload fits.
* `C155_scalar` — every scalar call of a Variant is the held EOS's function of the same name with the same arguments in the same order (the default appended if the last argument is left out); any other number of arguments does not compile.
* `C155_held` — a Variant built from, or assigned, an EOS of one of its types holds that EOS: `IsType` says so for that type alone, `get` returns the object, `get` of another type throws, and functors are applied to that object. Other types do not compile.
* `C155_any_eos` — for an EOS whose array code is element-wise in the sense of C50 (the plain EOS, and the modifiers of `C50_shifted`, `C50_scaled`, ...), the calls through a Variant are element-wise, however they are written.

### C156 Helmholtz queries agree with each other, whatever was asked before — partial

For the Helmholtz EOS: FillEos aborts exactly when there is no lambda, density is requested, or both temperature and energy are; otherwise it sets the requested outputs to the answers of the corresponding direct queries and changes nothing else. Every query by density and energy is the query by density and temperature at the temperature TemperatureFromDensityInternalEnergy returns. Answers do not depend on what was asked before through the same lambda. The reference state consists of direct answers, including the thermal expansion. DensityEnergyFromPressureTemperature returns the density with the requested pressure within its tolerance, and the energy there.

Over: all tables, options, compositions, states, requested outputs, contents of uninitialised memory, and all sequences of earlier calls.

In `Verif.Props.Eos.HelmholtzQuery`.

* `C156_fill_aborts` — `FillEos` aborts exactly when there is no lambda, when the density is asked for, or when both temperature and energy are.
* `C156_fill` — otherwise it does what it should: the outputs asked for are the answers of the direct queries, everything else is left alone.
* `C156_answers` — with a lambda every query answers, without one every query aborts.
* `C156_by_energy` — a query by density and energy is the query by density and temperature at the temperature that `TemperatureFromDensityInternalEnergy` returns for the same arguments.
* `C156_history` — **C156.** Whatever calls were made on the same lambda before, of any kind, in any number and order, as long as none aborted: the composition entries are still what they were, and every query by density and temperature answers what it would have answered at the start. If the lambda has no log-temperature entry this is so for every query, since the lambda is as it was.
* `C156_energy_after_temperature_violated` — **C156 violated** for queries by energy, on a lambda with a log-temperature entry: once the energy, pressure, heat capacity or bulk modulus has been asked for at a temperature `T`, every query by density and energy answers for `T`, whatever density it is asked at and whatever the energy.
* `C156_values` — the queries by temperature return the quantities whose laws are C77-C81, and the temperature query is that of C80.
* `C156_reference` — the reference state is a state of the EOS at density `1e7` and temperature `1.5e9`: the energy, pressure, heat capacity and bulk modulus are the direct queries there, and `dp/de` is the Gruneisen parameter times the density.
* `C156_reference_expansion_violated` — violated in the last entry: the thermal expansion `dv/dT` reported with the reference state is zero, which it is not, for every composition, with or without radiation, with electrons that are not degenerate.
* `C156_pressure_temperature_state` — what `DensityEnergyFromPressureTemperature` returns, when it returns, is a non-negative density, at least the least of the table and less than 32 times the largest, and the energy at that density and the given temperature; without a lambda it aborts.
* `C156_pressure_temperature` — let the pressure at the given temperature and composition rise with density, between any two densities of the table's range, at least at the rate `c` and at most at the rate `C`, and let the requested pressure be that at a density `r` of the range. Then `DensityEnergyFromPressureTemperature` returns, a density of the range within `10^-8` or `2 10^-8 / c` of `r`, with its energy, provided `10^7` is in the range and the rates allow the root finder to finish within its 1000 iterations.
* `C156_pressure_temperature_ideal` — with electrons that are not degenerate (an ideal gas, with or without radiation) `DensityEnergyFromPressureTemperature` inverts the pressure for every density and temperature of the published table's range.
* `C156_composition` — The mean atomic mass and number are those of the caller's lambda.

### C157 StellarCollapse answers do not depend on what was asked before through the same lambda — partial

For the StellarCollapse EOS: a call without a lambda aborts and otherwise every answer is for the electron fraction in it. After any sequence of calls through one lambda, a call made with a temperature (queries, composition, FillEos, density from pressure and temperature) or with an energy off the table answers exactly as before the sequence, and the temperature of an energy on the table changes by no more than the search tolerance; right after a call at temperature T, the temperature of the energy at T is T itself. The electron fraction in the lambda is the caller's and stays as it is.

Over: all tables, electron fractions, states, contents of the cache and of uninitialised memory, and all sequences of earlier calls.

In `Verif.Props.Table.StellarCollapseCalls`.

* `C157_null` — without a lambda every call aborts, also that of the reference state, which needs none for its answer.
* `C157_answers` — with a lambda, every call answers for the electron fraction in it; the calls other than `FillEos` never abort, and `FillEos` aborts exactly when it does so by itself (C102).
* `C157_electron_fraction` — a run of calls, of any length, that does not ask for the reference state leaves the electron fraction of the caller alone, and answers one by one as many calls as were made.
* `C157_history` — a call that has no temperature to search for (made with a temperature, or an energy off the table, or with neither) gives after any run of calls without the reference state exactly the answer it would have given before, also in what it aborts on and whatever the uninitialised variables contain.
* `C157_history_energy` — the temperature of an energy on the table depends on the calls before it by no more than the search tolerance. At the densities and electron fractions of the table, where the stored log energy rises by at least `r > 0` grid spacings from one temperature to the next, two runs without the reference state lead to temperatures for the energy of `T` that differ by at most `2 max thr (2 thr / r)` in the logarithm, when the search succeeds both times (C97_round_trip: certain if the energy does not rise too unevenly).
* `C157_cached_round_trip` — the cache makes the round trip exact. After any call made with the temperature `T` (at whatever density, `FillEos` and the composition included), the temperature of the energy that any density has at `T` is found to be `T` itself, without error and whatever the shape of the table: it need not even rise with the temperature. Required are a lambda with a cache, `T` in the table, an energy strictly between the curves, and `T` distinguishable from the lowest temperature by the tolerance of the search, in itself and in energy.
* `C157_reference_violated` — is violated by the reference state: after it the caller's electron fraction is that of the reference state, 0.3517, and every later call answers for that composition, until the caller restores his own.
* `C157_reference_pressure_violated` — is violated: on this table the pressure of one and the same state is 10 before the reference state is asked for and `10^0.3517` after it.

### C158 The lambda of a Spiner (density, temperature) EOS: answers do not depend on it, its entries report on the last call — partial

For SpinerEOSDependsRhoT with any lambda (null, array, or type-indexed with any entries): a call that has nothing to search for gives the same answer with every lambda, hence after every history; the others change by at most the search tolerance, and not at all in reproducibility mode. RootStatus and TableStatus report whether the last call's search succeeded and where its state lay. Right after a call at a density and temperature, the temperature of the energy there and the density of the pressure there are found exactly. The mass fraction entries receive the phase fractions at the given state and nothing else writes them. FillEos leaves the same entries as the corresponding single query.

Over: all tables, states, lambdas, contents of uninitialised memory, sequences of earlier calls and numbers of phases.

In `Verif.Props.Table.SpinerRhoTCalls`.

* `C158_any_lambda` — a call that has nothing to search for gives the same answer, and aborts in the same cases, with any two lambdas, a null pointer included, hence after any history of calls; whatever uninitialised memory contains.
* `C158_mass_fractions` — the mass fractions. With phase data, entry `n` of the lambda becomes the fraction of phase `n` at the given density and temperature, for every phase there is, at the log temperature found when the energy is given; without phase data entry 0 becomes 1. No other mass fraction is touched, and no other call touches any.
* `C158_diagnostics` — the diagnostics. After a query by energy followed by any run of direct calls, the entry `TableStatus` of the lambda says where the energy lay (2: above the hottest isotherm, 0: on the table, 1: below), and `RootStatus` whether the search succeeded (0) or failed (1), which it can do only on the table.
* `C158_fill_lambda` — `FillEos` leaves in the lambda what the single query does: by density and temperature what a pressure query does, by density and energy what a temperature query does, and by pressure and temperature what `DensityEnergyFromPressureTemperature` does, which however recomputes the log density from the density it returns.
* `C158_table_status_violated` — is violated by the calls made with a temperature: they leave `TableStatus` as the last inversion left it. A state beyond the hottest isotherm, whose pressure is extrapolated, is still reported as being on the table after an earlier query on the table.
* `C158_any_lambda_energy` — the temperature of an energy on the table depends on the lambda by no more than the tolerance of the search, on an isochore that rises at least at rate `m`; the reported `RootStatus` 0 is what makes it hold.
* `C158_pressure_temperature` — density from pressure and temperature, with any lambda. `TableStatus` says whether the temperature was below (1), above (2) or on the table (0); and if `RootStatus` is 0 then, on the table or on the cold curve, along an isotherm rising at least at rate `m` above the density of least pressure, the density found for the pressure at log density `x` has a log within the tolerance of the search of `x`.
* `C158_cached_round_trip` — the cache makes the round trips exact. After any call at a density and temperature on the table, the temperature of the energy there is the temperature of the call, and the density of the pressure there at this temperature is the density of the call, without error and whatever the shape of the table. Required are a lambda with a cache, and a state distinguishable by the tolerance of the search from the lowest temperature, respectively from the density of least pressure.
* `C158_reproducible_violated` — is violated by `reproducibility_mode`: it replaces the default guess but still prefers the one in the lambda, so the answer depends on what was asked before. For the energy `10^-14` a fresh lambda gives the temperature `10^-14`, one with `1.5 10^-14` in the cache gives `0.75 10^-14`.

### C159 The lambda of a Spiner (density, energy) EOS: answers do not depend on it, its entries report on the last call — partial

For SpinerEOSDependsRhoSie with any lambda (null, array, or type-indexed with any entries): a call that has nothing to search for, that is every call except finding a density from a pressure on the table, gives the same answer with every lambda, hence after every history; finding a density changes by at most the search tolerance with the lambda, and not at all in reproducibility mode. RootStatus reports whether the last search succeeded, TableStatus where its state lay. After a call at a density, the density of the pressure there at any temperature is found exactly, calls that note no density in between included. The mass fraction entries, or the array given instead, receive the phase fractions at the given state and nothing else writes them.

Over: all tables, states, lambdas, contents of uninitialised memory, sequences of earlier calls and numbers of phases.

In `Verif.Props.Table.SpinerRhoSieCalls`.

* `C159_any_lambda` — a call that has nothing to search for gives the same answer, and aborts in the same cases, with any two lambdas, a null pointer included, hence after any history of calls; whatever uninitialised memory contains.
* `C159_history` — whole histories. A run of calls none of which searches gives the same list of answers with any two lambdas to begin with and any contents of uninitialised memory; and each answer is the one the call gives alone.
* `C159_mass_fractions` — the mass fractions. With phase data, entry `n` of the lambda becomes the fraction of phase `n` at the given density and temperature, for every phase there is; without phase data entry 0 becomes 1. No other mass fraction is touched, and no other call touches any; and an array given instead of a lambda receives the same numbers.
* `C159_root_status` — the entry `RootStatus`. After `DensityEnergyFromPressureTemperature` and then any run of calls none of which finds a density from a pressure, it is 0 if the search succeeded, or was not needed, and 1 if it failed, which it can do only for a pressure not beyond the table.
* `C159_table_status_violated` — is violated for the entry `TableStatus`: no call ever writes it, so a caller reads what was there before, also after a call for a pressure beyond the table.
* `C159_cached_round_trip` — the cache makes the round trip exact. After any call at a density, by temperature or by energy, and then any run of calls that do not note a density, the density of the pressure at this density and any temperature is the density of that call, without error and whatever the shape of the isotherm; and the energy is the one there. Required are a lambda with a cache, a pressure not beyond the table, and a density distinguishable by the tolerance of the search from that of least pressure. `FillEos` finds the same.
* `C159_pressure_temperature` — density from pressure and temperature, with any lambda. If `RootStatus` reads 0 afterwards then, along an isotherm rising at least at rate `m` above the density of least pressure, the density found for the pressure at log density `x` has a log within the tolerance of the search of `x`; so two lambdas lead to log densities within twice that.
* `C159_reproducible_violated` — is violated by `reproducibility_mode`: it replaces the default guess but still prefers the one in the lambda, so the answer depends on what was asked before. For the pressure `10^-14` a fresh lambda gives the density `10^-14`, one with `1.5 10^-14` in the cache gives `0.75 10^-14`.

### C160 A PTE solver touches only the entries of its own arrays, and fills what it should — partial

Whatever values come up and however the driver interleaves its calls after Init, each PTE solver reads and writes only existing entries of its scratch blocks and of the caller's per-material arrays, and only inside the memory it asked for. Each evaluation of the residual writes every equation exactly once; each Jacobian evaluation writes every entry of the matrix that is then solved; each trial step rewrites volume fraction, density, energy, pressure and internal energy density of every material.

Over: all five solvers, every number of materials, every excluded material, every outcome of the value-dependent branches and every sequence of driver calls.

In `Verif.Props.PTEAccess`.

* `C160_in_bounds` — whatever values come up, and in whatever order the driver makes its calls after `Init`, a solver for at least one material (two for RhoU) reads and writes only existing entries of its own scratch blocks and of the caller's arrays. `ms₀` is what the memory of the member held before `Init`. The caller's index to exclude, if any, must name a material.
* `C160_residual_once` — `Residual` of every solver writes each entry of the residual exactly once, in order, and nothing else of it.
* `C160_jacobian_filled` — `Jacobian` writes every entry of the Jacobian, so `Solve` reads none that is left over.
* `C160_update_complete` — one `TestUpdate` rewrites the volume fraction, density, energy, pressure and internal energy density of every material, and, except for FixedT, the temperature.
* `C160_in_memory` — a scratch block begins where the blocks before it end and is followed by the next, so an index inside the block is an address inside the memory the caller was told to provide.
* `C160_rhoU_one_violated` — violation: RhoU with one material. `Jacobian` writes six numbers into a Jacobian of four; the two others are the first two of `dx`, which `Solve` overwrites next, so nothing outside the solver's memory is hit. But the second row, the energy equation (written with 0 and 1), is overwritten by what is meant for the rows of the pressure and temperature differences, which do not exist with one material.
* `C160_exclude_violated` — violation: RhoT told to exclude a material that does not exist (`PORTABLE_REQUIRE` only looks in debug builds). `Residual` then has one equation too many: it writes one past the residual, onto the internal energy of the first material, and reads a pressure the caller never provided; every trial step writes a volume fraction past the caller's array.

### C161 Floor, ramp, relativistic and unit modifiers in machine arithmetic — partial

In double precision: FlooredEnergy looks up exactly the energy given or the minimum energy, never one below the minimum, and keeps a monotone lookup monotone. BilinearRamp returns the larger of the two pressures; its ramp pressure is exactly 0 up to the reference density, never negative and never falling with density on either part, and the density found from it agrees with the density given up to six roundings. RelativisticEOS returns a bulk modulus that is never negative and never NaN, equal to B/(c^2+e+P/rho) up to four roundings. UnitSystem calls the wrapped equation of state with arguments converted up to one rounding, its results are converted up to three, and FillEos leaves the quantities it is given unchanged. NaN from the wrapped equation of state is not turned into a number.

Over: all double-precision arguments and parameters in the stated ranges, infinities and NaN included where no range is stated, all wrapped equations of state, every rule for ties in rounding.

In `Verif.Props.IeeeMoreModifiers`.

* `C161_floor` — `FlooredEnergy` makes no rounding error: every lookup by energy is the wrapped lookup at the same energy `x`, which is the energy given or, only if that is below it, the minimum energy of the density; so `x` is not below the minimum.
* `C161_floor_twice` — flooring twice is flooring once, and lookups by temperature and the minimum energy are those of the wrapped equation of state.
* `C161_floor_monotone` — a lookup that is monotone in the energy stays monotone under the floor (any minimum, infinite and NaN included).
* `C161_floor_nan_violated` — fails here: a minimum energy that is NaN disables the floor, whatever the energy; and an energy that is NaN is passed on to the wrapped equation of state instead of being replaced by the minimum.
* `C161_ramp_larger` — the pressure of the ramped equation of state is one of the two pressures and not below either, unless one of them is NaN; the bulk modulus is the wrapped one exactly when the pressure is; everything else is passed on.
* `C161_ramp_nan_violated` — fails here: a NaN wrapped pressure is returned as it is, although the ramp pressure is well defined; and where the ramp pressure is NaN the wrapped pressure is returned unchecked.
* `C161_ramp_first_part` — the computed ramp pressure is exactly 0 below and at the reference density, and below the mid density it never decreases with density and is never negative, overflow included.
* `C161_ramp_second_part` — from the mid density on the computed ramp pressure never decreases with density either.
* `C161_ramp_round_trip` — the pressure of the first part of the ramp has an absolute error of at most 16 half-units of the product `a ρ/r0`, and `get_ramp_density` brings the density back up to six roundings.
* `C161_ramp_bulk` — on the ramp the bulk modulus is density times slope, `ρ a/r0` or `ρ b/r0`, up to two roundings.
* `C161_ramp_kink_violated` — fails at the mid density: with the ramp `r0 = 3/4, a = 1/4, b = 1, c = 5/4` (mid density 1, every constructor operation exact) the computed ramp pressure falls when the density goes up from the last number below 1 to 1.
* `C161_relativistic_total` — the bulk modulus of `RelativisticEOS` is never NaN and never negative, whatever the wrapped equation of state returns; everything else is passed on.
* `C161_relativistic_value` — for a positive energy scale, the result is `B / (c² + e + P/ρ)` up to four roundings.
* `C161_relativistic_hides_nan_violated` — fails here: a NaN bulk modulus of the wrapped equation of state is reported as the number 0, and so is every failure of its pressure or energy.
* `C161_units_by_energy` — in range, the equation of state wrapped by `UnitSystem` is called with density and energy in its own units up to one rounding each, and the results are in the chosen units up to two (temperature, specific heat) or three (pressure, entropy, bulk modulus) roundings; the Grüneisen parameter is passed on.
* `C161_units_by_temperature` — the lookups by temperature and the minimum energy, likewise.
* `C161_units_fill_inputs_partial` — `FillEos` of `UnitSystem` writes back even the quantities it is given: density, temperature and energy that the wrapped `FillEos` leaves alone are returned up to three roundings (see the next theorem for a case where they change).
* `C161_units_fill_drifts_violated` — fails here: `FillEos` of `UnitSystem` changes its input. With a density unit of 49 and a wrapped `FillEos` that leaves the density alone, density 1 comes back as `1 - 2^{-53}`, and calling `FillEos` again lowers it again.

### C162 P-alpha ramp parameters and their searches — partial

pAlpha2BilinearRampParams returns the parameters of a ramp that is zero up to rho0/alpha0 and passes exactly through (rmid, Pe) and (r1, Pc), where rmid is the density at which the solid part has the elastic pressure and r1 the density at which the solid has the crush pressure, both found within the search tolerance; the bound it searches up to is high enough whenever the solid does not soften under compression, and for an ideal gas; when a point cannot be found the caller is told.

Over: all equations of state (isotherms), porosities, elastic and crush pressures, search bounds, contents of uninitialised variables and hardware results of a division by zero.

In `Verif.Props.PAlpha`.

* `C162_points_found` — when the elastic and the crush pressure are both reached inside the searched densities, both searches succeed, whatever the uninitialised locals held and whatever the hardware does on a division by zero: `rmid` answers "where does the solid at `alpha0` times this density have the elastic pressure", `r1` answers "where does the solid have the crush pressure", both within the search bounds.
* `C162_points_accurate` — how close the two points are. `rmid` is the density whose solid part is at the elastic density `de`, that is `de / alpha0`, and `r1` is the crush density `dc`, up to the search tolerance plus the tolerance on the pressure divided by the slope.
* `C162_ramp` — the finished ramp. If the elastic density is clear of the reference density, and the crush density clear of the elastic point, by more than the error of the searches, the parameters the function returns build a ramp that is zero at the porous density, and passes exactly through `(rmid, Pe)` and `(r1, Pc)`, where `rmid` is `de / alpha0` and `r1` is `dc` to the accuracy of the searches. (The two slopes must differ, or the ramp is rejected when it is built.)
* `C162_no_softening` — a solid that does not soften always has both points in reach. If the isotherm rises, the isothermal stiffness `rho dP/drho` never falls below the reference bulk modulus under compression, and `P0 ≤ Pe ≤ Pc`, the upper bound the function computes is high enough, so (with `C162_points_found`) both searches succeed.
* `C162_ideal_gas` — for an ideal gas with `gamma ≤ 2` both points are in reach for every `P0 ≤ Pe ≤ Pc` (as long as the bound stays finite), although its isothermal stiffness at the reference state is below the reference bulk modulus.
* `C162_bound_overflows_violated` — violated: the cap on the exponent is meant to keep the upper bound representable, but the exponential is then multiplied by `rho0`: for a soft solid (or a large crush pressure) of reference density above 100/99 the bound exceeds the largest number.
* `C162_unreached_crush_violated` — violated: a failed search is not reported. If the solid does not reach the crush pressure at any density between the porous density and the upper bound, the second search always fails, whatever the hardware does on a division by zero; the function returns parameters all the same and its caller cannot tell.
* `C162_elastic_below_reference_violated` — violated: an elastic limit below the reference pressure. The search starts at the porous density, whose solid part is at the reference density, so for a solid whose pressure only rises on compression the answer is below the searched interval: the first search always fails, unreported.
* `C162_silent_ramp_violated` — violated, concretely: a solid that levels off at pressure 3, asked for an elastic limit of 1/2 and a crush pressure of 4. The first search succeeds, the second fails, and the function returns the parameters of a ramp that the constructor accepts and that reaches the crush pressure at the upper bound of the search, where the solid's pressure is 3.

### C163 Carnahan-Starling gas in machine arithmetic — partial

In double precision, with rounding, overflow, infinities and NaN: for every argument temperature, pressure and bulk modulus are at least SMALL and the energy at least q; below the packing limit all lookups are monotone in temperature or energy up to the infinities. The energy is exact up to 2 roundings, the temperature up to 4 of (e-q)/Cv, T to e to T up to 10 roundings of T + q/Cv; with F = 1 - b rho the compressibility Z, Z gm1, pressure and bulk modulus up to 33/F, 36/F, 44/F and 85/F roundings for F down to 2^-40. Without covolume the gas is the ideal gas to the last bit. The density search always ends; a density it returns is at least 0, never NaN, and the midpoint of two densities meeting the stopping rule; a NaN pressure, temperature or guess aborts. Fails: NaN arguments of the other lookups give ordinary numbers; the tolerances of the density search are absolute, so for a thin gas (b = gm1 = Cv = T = 1, guess up to 2^-30) the density returned is half the guess whatever the pressure.

Over: all roundings to nearest (any tie rule), all machine numbers, all parameters.

In `Verif.Props.IeeeCarnahanLaws`.

* `C163_floors` — the floors hold for every argument, NaN and infinities included: temperature, pressure and bulk modulus are at least `SMALL`, the energy at least `q`.
* `C163_nan_violated` — violated: a NaN energy has the temperature, pressure and bulk modulus `SMALL`, a NaN temperature the energy `q`, and a NaN density the pressure and bulk modulus `SMALL`.
* `C163_energy_temperature` — energy and temperature lookups: the energy is exact up to 2 roundings, the temperature up to 4 of `(e - q) / Cv`.
* `C163_round_trip` — temperature to energy and back: within 10 roundings of `T + q / Cv`.
* `C163_monotone` — monotone: at a fixed density below the packing limit, the energy does not decrease with the temperature, nor do temperature, pressure and bulk modulus with the energy, nor pressure and bulk modulus with the temperature, for all arguments up to the infinities.
* `C163_pressure` — below the packing limit, compressibility, Grüneisen parameter and pressure are the rounded closed forms: the relative error is at most 44 roundings divided by the free fraction `1 - b rho`.
* `C163_bulk_modulus` — the bulk modulus likewise, within 85 roundings divided by the free fraction.
* `C163_no_covolume` — without a covolume the gas is the ideal gas, to the last bit: at a finite density the compressibility is exactly 1, and pressure and Grüneisen parameter are the products of the ideal gas, evaluated left to right.
* `C163_density` — what the density lookup does: a temperature of at most the least normal number gives the density 0; a covolume of at most that the rounded density of the ideal gas; otherwise the search ends, with an abort or with a density that is at least zero, never NaN, and that is the larger of zero and the computed midpoint of two densities `p`, `q` as described by the stop rule: they are computed to be no more than 2·10⁻⁹ apart, or the computed residual at one of them is no more than 10⁻⁹ (or NaN), or they coincide (both tolerances are absolute; not above: at most, or not comparable).
* `C163_density_nan` — a NaN pressure, temperature or starting guess aborts the density lookup of a gas with a covolume; it never returns a density.
* `C163_thin_gas_violated` — violated: the tolerances of the density search are absolute, so for a thin gas the answer is half the starting guess, whatever the pressure: with `b = gm1 = Cv = T = 1` and any guess `2 H` up to `2^-30`, every pressure from 0 up to the guess has the "density" `H` (the true density is at most the pressure, so it can be smaller by any factor).

### C164 The Fortran and C declarations of the interface agree — partial

For every function of the C interface that the Fortran module declares, the two declarations have the same number of arguments, of interoperable types, by value or by reference alike, so that each C parameter receives what the Fortran user gave under its name, however many arguments there are; absent optional arguments arrive as null or as the documented default; and what is declared as not changed by a call is not changed.

Over: all 20 functions, all values of all arguments, with and without optional arguments, any number and mixture of arguments for the calling convention, both ways a compiler may pass intent(in) arguments.

In `Verif.Props.Bindings.FortranAbi`.

* `C164_convention` — whatever the number of arguments and the mixture of types, when the two declarations have the same representations in the same order every parameter receives the argument at its position: nothing is lost or exchanged when the registers run out and the rest goes on the stack.
* `C164_types` — in every interface block the dummy arguments are as many as the parameters of the C function and each is of a type interoperable with the parameter at its position: what C takes by value is passed by value, the pointer that C takes by reference is passed by reference.
* `C164_arguments` — for every function of the interface and all values: when the Fortran function is called, the C function receives under the name of each parameter what the user gave under that name (`meant`), and nothing else.
* `C164_names` — the parameter names of a function are distinct, so that `C164_arguments` says what each of them receives.
* `C164_optionals` — optional arguments of the mixed call: an absent array is a null pointer in C, a present one its address; the cutoff is the one given, or the default of the module.
* `C164_handle_partial` — with a compiler that passes the address of the handle itself, the handle is the new array after the initialisation and null after finalising, whatever it was.
* `C164_handle_violated` — is violated for compilers that pass a copy, which the declaration `intent(in)` of the handle allows: after `init_sg_eos_f` the handle is still null, so the array is lost and every later call works on null; and after `finalize_sg_eos_f` a handle still points to the deleted array. With every way of passing, an argument that is declared not to change does or should have: no single value of the handle is right for both the declaration and the interface.
* `C164_intent_violated` — is violated by the mixed call: `get_sg_eos_f` declares the per-cell arrays `intent(in)`, that is, as not changed by the call, but the pressure-temperature call changes `pmax`, `vol`, `spvol`, `sie`, `bmod`, `dpde` and `cv` of a cell (so a compiler that relies on the declaration may go on using the values from before the call).

### C165 SAP polynomial in machine arithmetic — partial

In double precision, with rounding, overflow, infinities and NaN: the compression polynomial is taken exactly when the density is at least the reference density, down to the neighbouring doubles, and there the compression is exactly 0. Pressure, Gruneisen and bulk modulus lookups are finite and equal the polynomial of the exact compression within 2^-48 of the sum of the magnitudes of its terms, for coefficients, energies and densities of any size and sign short of overflow (magnitudes below 2^-500 count as 2^-500). A NaN or infinite density or energy is never masked: it shows in the result. Fails: a zero reference density is accepted, and then no lookup ever gives an ordinary number.

Over: all roundings to nearest (any tie rule), all machine numbers, all parameters.

In `Verif.Props.IeeeSap`.

* `C165_branch` — the machine takes the compression polynomial exactly when the density is at least the reference density, and the expansion polynomial exactly when it is below: no density is misjudged by rounding, not even the nearest neighbours of the reference density; at the reference density the computed compression is exactly 0.
* `C165_pressure` — for all finite parameters, energies and densities, of any size and sign (short of overflow), the pressure is finite and equals the documented polynomial of the exact compression `rho/rho0 - 1`, of compression coefficients from the reference density on and of expansion coefficients below it, up to `2^-48` of the sum of the magnitudes of its terms.
* `C165_gruneisen` — likewise the Gruneisen parameter.
* `C165_bulk_modulus` — likewise the bulk modulus: `rho/rho0` times the derivative of the pressure polynomial with respect to the compression at fixed energy.
* `C165_nothing_masked` — an ordinary number is returned only for ordinary arguments and parameters: a NaN or infinite density or energy, or a NaN or zero reference density, always shows in the pressure and the bulk modulus as NaN or infinity, and, the energy apart, in the Gruneisen parameter too. This holds for every rounding and every largest number.
* `C165_zero_reference_violated` — Fails: a reference density of 0 is accepted ("must be non-negative"), but then no pressure, bulk modulus or Gruneisen parameter is ever an ordinary number, at any density and energy.

### C166 Ideal electron gas in machine arithmetic — partial

In double precision, with rounding, overflow, infinities and NaN: every lookup of IdealElectrons is at least 0 and never NaN, for all arguments and ionization states. At each ionization state it is bit for bit the ideal gas with that state's heat capacity, except that NaN becomes 0; negative states count as 0. In range every lookup is exact up to at most 6 roundings, temperature to energy and back up to 4, density to pressure and back up to 8, gamma - 1 is 2/3 up to 3 units of 2^-53 and the heat capacity per electron k/(gm1 A m_p) up to 5 roundings. Fails: for neutral atoms (state 0) a positive energy has infinite temperature and its two pressures differ (positive and 0); NaN arguments or states are masked as 0.

Over: all roundings to nearest (any tie rule), all machine numbers, all ionization states.

In `Verif.Props.IeeeElectrons`.

* `C166_never_negative_nor_nan` — every lookup of the electron gas is a number that is at least 0, never NaN, for all arguments, parameters and ionization states, NaN and infinities included, and every rounding.
* `C166_ideal_gas` — at every ionization state the electrons are, bit for bit, the ideal gas with the heat capacity of that state, except that what is NaN there is 0 here; the density from pressure and temperature too, unless the ideal gas' energy is NaN.
* `C166_negative_state` — a negative ionization state is treated exactly as 0, and the heat capacity then is 0.
* `C166_lookups` — in range, with `c` the heat capacity of one electron per ion and `z` the ionization state, each lookup is the exact value for heat capacity `c z` up to its number of roundings (at most 6).
* `C166_round_trip` — temperature to energy and back, and energy to temperature and back, at one ionization state return the start up to 4 roundings.
* `C166_density_round_trip` — density to pressure (at a temperature) and back returns the density up to 8 roundings, with the energy of the temperature.
* `C166_gamma` — the constant `gamma - 1` of the electron gas is 2/3 up to `3 * 2^-53`.
* `C166_heat_capacity` — the heat capacity per electron is Boltzmann's constant over `gm1` times the mean atomic mass times the proton mass, up to 5 roundings.
* `C166_neutral_violated` — fails at ionization state 0 (neutral atoms, an ordinary state): a positive energy has infinite temperature, a temperature does not survive the way to energy and back, and at a positive density and energy the pressure by energy is positive and the pressure by the temperature of that energy is 0.
* `C166_nan_masked_violated` — fails: NaN is masked. With a NaN ionization state the heat capacity is NaN, yet temperature, energy and pressure (from the temperature) are 0 at all arguments; a NaN argument gives 0 at every ionization state.

### C167 JWL in machine arithmetic — partial

In double precision, with rounding, overflow, infinities and NaN, and whatever the library's exponential returns: with e_r and P_r the computed reference energy and pressure at the density, temperature to energy and back gives T up to 2^-48 of T + 2|e_r|/Cv; the pressure by temperature is P_r + w rho Cv T up to 2^-48 of |P_r| + w rho (2|e_r| + Cv T), and the pressure the density search solves for is the same sum up to 2^-48 of its terms; each reference function calls the exponential at -R rho0/rho up to 2^-48 and combines the results up to 2^-48 of the sum of its terms' sizes. A NaN or infinite temperature, energy or (in the pressures) density is never masked. Fails: a thermal energy below 2^-54 of e_r is lost, so that the temperature comes back as 0.

Over: all roundings to nearest (any tie rule), all machine numbers, all exponentials.

In `Verif.Props.IeeeJwl`.

* `C167_temperature_round_trip` — whatever the exponentials are, temperature to energy and back returns the temperature up to `2^-48` of `T + 2 |e_r| / C_v`, with `e_r` the reference energy at the density: the thermal energy is lost to rounding as it becomes small against the reference energy.
* `C167_pressure` — the pressure at density `d` and temperature `T` is the reference pressure plus `w d C_v T`, up to `2^-48` of the sum of `|P_r|` and `w d (2 |e_r| + C_v T)`.
* `C167_searched_pressure` — the pressure for which `DensityEnergyFromPressureTemperature` searches a density is the same sum, up to `2^-48` of its terms (here the reference energy does not enter).
* `C167_nothing_masked` — an ordinary number is returned only for ordinary arguments, whatever the exponentials are: a NaN or infinite temperature shows in the energy, a NaN or infinite energy in the temperature, either of energy and density in the pressure.
* `C167_temperature_lost_violated` — fails: when the reference energy is a float of at least `2^54` times the rounded `C_v T`, the energy of the temperature is the reference energy itself, so that temperature comes back as 0.
* `C167_reference` — at density `d` both reference functions evaluate the exponential at two arguments equal to `-R1 rho0/d` and `-R2 rho0/d` up to `2^-48` of themselves; if its results there are the ordinary numbers `y1` and `y2`, the reference pressure is `A y1 + B y2` and the reference energy `c1 y1 + c2 y2`, up to `2^-48` of the sum of the magnitudes of their terms.

