# Formal model of singularity-eos in Lean 4 — design

## 1. Trusted base

* **Lean 4.33.0's kernel**, with Mathlib as a library. No `native_decide`, no `bv_decide`, no axioms of our own, no
  unfinished proofs; every theorem depends on at most `propext`, `Classical.choice` and `Quot.sound` (Lean's own). `python3 tools/gen.py`
  writes `/tmp/axioms.lean`, which prints the axioms of each property theorem.
* **The reading of the C++.** Each definition under `lean/Verif/Model/` cites the file and lines it models and says where it
  simplifies. The code is never compiled or executed here, so this reading is part of the trusted base. The model files
  contain no theorem; the property files contain no definition of program behaviour.
* **Arithmetic.** `Real` (double) is modelled by an arbitrary linearly ordered field `K` where only `+ - * / < <= min max`
  occur (so the theorems hold over ℝ and witnesses compute over ℚ), and by Mathlib's `ℝ` where `exp`, `log`, `pow`, `sqrt`
  occur. Rounding, overflow, NaN and infinities are not modelled, with these exceptions: the NQT logarithms with aliasing
  are bit-exact integer functions on the 64-bit patterns; `safe_arg_exp` has an explicit infinity; log-space kinetic rates
  have an explicit minus infinity; `sum_neumaier` (C133) and `regula_falsi` (C134) and `robust_utils` (C135, with overflow and NaN), `IdealGas` (C137) and the scale and shift modifiers (C138) are also modelled with every operation rounded
  (`Spec/Rounding`: binary format of `p` bits, to nearest, any ties; no overflow otherwise); Newton's division by a zero derivative is an arbitrary function (any hardware result).
  `robust::SMALL` and `EPS` are explicit positive parameters, not erased. Some properties are stated with `SMALL = 0`
  (exact division) and say so (`Num.exact`).
* **Undefined behaviour** (reading uninitialised data, dangling or null pointers, out-of-bounds access, double free) is a
  distinct observable outcome in the models of the properties that are about it (C24, C25, C54–C56, C63, C65, C72).
* **Libraries outside /repo**, modelled from their documented behaviour and trusted to have it:
  Spiner `PiecewiseGrid1D` (points in order, a meeting point stored twice; `index` selects a segment of positive length that
  holds the argument, outside the first or last: `Mesh.Ok`) in `Model/Table/Mesh.lean`;
  Spiner `RegularGrid1D`/`DataBox` (clamped index, multilinear interpolation, extrapolation from the end cells, `min`, `max`,
  allocation status) in `Model/Table/DataBox.lean`, `Bounds.lean`, `Ownership.lean`; HDF5 files as a map from names to
  contents; EOSPAC as exact functions of the point asked; Kokkos `UniqueToken` as "no two holders of one token at a time";
  `memcpy`, `frexp`, `ldexp`; the linear solver of the PTE step as an arbitrary function of the system (theorems about the
  Newton step assume the system solved); trivially copyable objects are their bytes.

## 2. Layout

* `lean/Verif/Model/**`   the code, function by function, with citations.
* `lean/Verif/Spec/**`    small independent specifications (sorted, thermodynamic laws, partition of memory, …).
* `lean/Verif/Lemmas/**`  helper lemmas.
* `lean/Verif/Props/**`   the property theorems, named `Cnn_…`, with `example`s that meet their hypotheses. Where the code
  violates the expectation in the property, the theorem `Cnn_…_violated` gives a concrete witness, and `_partial` theorems
  (or theorems whose hypotheses exclude the witness) give what does hold.
* `tools/props.py` → `properties.jsonl`; `tools/gen.py` → `lean/Verif.lean`, `MANIFEST.json`; `tools/gen_design.py` → this file.
* `seeded/LOG.jsonl`      mutation tests: edits to the model that mimic realistic bugs and the theorems that failed.

## 3. What is modelled

| part of /repo | model | notes |
|---|---|---|
| base/robust_utils, math_utils | `Model/Robust`, `IeeeRobust` | all; `ratio`, `sgn`, `make_positive`, `make_bounded` also on IEEE numbers (rounding, overflow, infinities, NaN) |
| base/root-finding-1d | `Model/RootFind`, `RootCounts`, `FloatRootFind`, `IeeeRootFind` | `regula_falsi`, `newton_raphson`, `set_bracket`, `check_bracket`, `findRoot`, `secant`, `bisect`, iteration statistics (`RootCounts`); `regula_falsi` also with rounded arithmetic, and all finders on IEEE numbers (rounding, overflow, infinities, NaN) |
| base/fast-math/logs | `Model/Math/FastLog`, `Model/Math/LogBuild` | NQT first and second order, portable (over ℝ, and with rounding) and aliased (bit patterns); selection by build options |
| base/hermite | `Model/Table/Hermite` | all |
| base/spiner_table_utils | `Model/Table/Bounds`, `Ownership` | grid bounds, anchors, multi-grid construction; memory ownership |
| base/indexable_types, variadic_utils, eos_type_lists, eos_variant | `Model/TypeLists` | type lists, index lookup of lambda types, dispatch |
| eos_variant modifier interface, eos_builder, EosType names | `Model/Variant` | Modify, UnmodifyOnce, GetUnmodifiedObject, is_modifiable, names |
| base/serialization_utils, eos_base serialisation | `Model/Serialize` | byte level |
| closure/kinetic_phasetransition_* | `Model/Kinetic`, `IeeeKinetic` | all four routines, also on IEEE numbers with any library `log` and `exp` |
| closure/mixed_cell_models | `Model/MixUtils`, `PTEInit`, `PTECheck`, `PTESolvers`, `PTEDerivs`, `PTEDriver`, `PTEFull`, `PTEAccess`, `Scratch`, `FloatSum`, `IeeePTE` | residuals, tests, line search and driver also on IEEE numbers; five solvers as complete objects run by the driver (constructor state to Finalize): Init, Fixup, Residual, CheckPTE, Jacobian, ScaleDx, TestUpdate, scratch layout, which array cells each function touches, driver loop, line search; `sum_neumaier` also with rounded arithmetic (no overflow) |
| eos/eos_base, EosIface | `Model/EosIface`, `EosBase` | scalar and vector interface, default inversions, min energy, PT derivatives |
| analytic EOS: ideal, stiff, Noble–Abel, Carnahan–Starling, Gruneisen, JWL, Davis ×2, MGUsup, PowerMG, Vinet, SAP polynomial, ideal electrons, the plug-in example Dust | `Model/Eos/*`, `IeeeIdeal`, `IeeeStiff`, `IeeeCarnahan`, `IeeeSap`, `IeeeElectrons`, `IeeeJwl` | all queries; the ideal, stiff, Noble–Abel and Carnahan–Starling gases and the ideal electrons (without their entropies) and the SAP polynomial (without the lookups that return 0), JWL (without bulk modulus and density search), also on IEEE numbers |
| example programs `eos_grid`, `map_pt_space`, `pte_2mat`, `get_sound_speed_press` (and the argument checks of `get_sesame_state`, `get_spiner_bounds`) | `Model/Examples` | loops, starting state, argument checks; EOS arbitrary, printing and timing omitted |
| `GenericIndexer` (`generic_indexer.hpp`) | `Model/GenericIndexer` | reads and writes through nested indexers, by reference, pointer and own copy |
| Helmholtz | `Model/Eos/Helmholtz` | radiation, ions, Coulomb, electrons, sums, temperature inversion, lambda cache; the public queries, FillEos, reference state and inversion from pressure with the lambda they read and write (`Model/Eos/HelmholtzQuery`); the reader of the table file (`Model/Eos/HelmholtzFile`) on white-space separated words |
| SpinerEOSDependsRhoT, RhoSie, StellarCollapse | `Model/Table/*` | queries, inversions, off-table rules, transforms, save/load; StellarCollapse, RhoT and RhoSie also with the lambda (`StellarCollapseCalls`, `SpinerRhoTCalls`, `SpinerRhoSieCalls`); RhoT also from the file's numbers on piecewise grids (`SpinerRhoTLoad`: derived tables, reference state, mass fractions; `Tools/Sp5Eos`: from the sp5 file); RhoSie likewise (`SpinerRhoSieLoad`), its stored columns and sesame2spiner's writers |
| `utils/scripts/make_tabulated_ideal_sc.py` | `Model/Table/IdealScript.lean` | the file it writes, over the reals (not: command line, `cs2`, `gamma`) |
| sesame2spiner command line, deck parser, choice and names of materials, grid parameters | `Model/Tools/Sesame2Spiner` | strings as lists of characters, `stod` a parameter |
| sesame2spiner tables and the sp5 file; the constructors of the Spiner EOS | `Model/Tools/Sp5File` | the flat arrays, the nine boxes, cold curves, mass fractions; groups, soft links, attributes and datasets written and read; EOSPAC is any function of density and temperature; texts and compression left out |
| modifiers | `Model/Modifiers`, `IeeeModifiers`, `IeeeMoreModifiers` | shifted, scaled, ramp, unit system, relativistic, Z-split, floored; FillEos; scratch sizes; scalar lookups of all but Z-split also on IEEE numbers (of `FillEos` only that of the unit system) |
| construction | `Model/CheckParams` | constructors and CheckParams of the analytic EOS and of the modifiers, on IEEE numbers, debug and release builds |
| building from C, Fortran, Python | `Model/Construct` | parameter lists and calls of the C++ constructors, `init_sg_*`, `init_sg_*_f`, `py::init`; keyword binding |
| Fortran calling C | `Model/FortranAbi` | the interface blocks of `singularity_eos.f90`, the prototypes of `singularity_eos.hpp`, the actual argument lists of the module, System V argument passing (representation only), the handle under both ways of passing `intent(in)` |
| Variant | `Model/VariantCall` | all forwarding functions of `Variant` (scalar and array overloads), overload resolution by argument kind, the array overloads and loops of `EosBase`, `get`, `IsType`, `EvaluateHost/Device`; not `Transform` arguments, not C++ conversions |
| eos/get_sg_eos*, singularity_eos.cpp | `Model/CInterface`, `Model/CInterfaceCall` | four input modes, token pool, scratch rows, init flags; the whole call with its device mirrors and selective copies back (Kokkos views and memory spaces are assumed to behave as documented) |
| base/error_utils, debug checks of the C interface | `Model/DebugChecks` | classes of doubles; printing left out |
| eos/eos_eospac, eospac-wrapper | `Model/Eos/Eospac` | all scalar queries, FillEos, reference state, table selection, all array calls with scratch and Transform, `eosSafeInterpolate`, interleaving of library calls; the library is an abstract table with mutable conversion factors; extrapolation codes are not modelled |
| eos/eos_eospac serialisation and Finalize | `Model/EospacSerialize` | byte level; the library by its packing contract (`Spec/EospacSerialize`) |
| eos_base StrCat, messages of disabled queries | `Model/Messages` | all |
| eospac-wrapper: loading, options, metadata, name, release; the constructor's calls | `Model/Tools/EospacLoad` | the library is an arbitrary function of the history of calls; messages are left out |

Not modelled: in the Python and Fortran bindings (`Model/Bindings.lean`, `Model/BindingsArrays.lean`) registration of names and overload resolution by pybind11, byte strides that are no multiple of a double, and copy-in/copy-out by a Fortran compiler; the HDF5 library itself (taken as a map from paths to objects), Kokkos memory spaces, printing, performance.

## 4. Proof methods

* Loops: `forN`/fuelled recursion with invariants proved by induction on the trip count; no bound on sizes.
* Schedules (C24): a small-step machine for all interleavings; invariant over reachable states, and a commutation
  argument that every interleaving gives each cell what it would get alone.
* Root finding (C08–C10, C61): loop invariants for arbitrary functions; convergence from chord slopes — if all chords through the
  root have slopes in `[m, M]`, each pass either shrinks the bracket by `1 - m/2M` or halves a stale end value, which can happen
  at most `log2(M/m) + 2` times in a row. All table and density inversions (C39–C44, C52, C85–C105) are instances.
* Thermodynamics: `HasDerivAt` over ℝ for every named derivative (bulk modulus along the isentrope, Gruneisen, heat capacity),
  the first law `de/drho|T = (P - T dP/dT)/rho²`, and entropy relations. The laws are stated once in `Spec/ThermoLaws`, `Spec/Jets`.
* Memory: byte-level round trips, interval disjointness, and a history machine with an invariant over all operation lists.
* Violations: explicit rational (or ℝ) witnesses evaluated by the kernel.

## 5. Per property

Status, theorems, and the limits found. `violated` means the natural reading of the property is false of the code; the
witness is the theorem.

