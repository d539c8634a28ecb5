{
 "claims": [
  {
   "property": "C01",
   "status": "proved",
   "theorems": [
    "Verif.Kinetic.C01_sortGibbs_orders",
    "Verif.Kinetic.C01_sortGibbs_frame"
   ],
   "note": ""
  },
  {
   "property": "C02",
   "status": "proved",
   "theorems": [
    "Verif.Kinetic.C02_local_balance",
    "Verif.Kinetic.C02_nonneg",
    "Verif.Kinetic.C02_total_mass",
    "Verif.Kinetic.C02_loss_bounded",
    "Verif.Kinetic.C02_conserved_exactly",
    "Verif.Kinetic.C02_exact_conservation_violated",
    "Verif.Kinetic.C02_conserved_iff"
   ],
   "note": "C02_exact_conservation_violated exhibits the loss the statement bounds."
  },
  {
   "property": "C03",
   "status": "proved",
   "theorems": [
    "Verif.Kinetic.C03_closed_form_is_position",
    "Verif.Kinetic.C03_slots_bijective",
    "Verif.Kinetic.C03_logRates_layout",
    "Verif.Kinetic.C03_fromto_unambiguous",
    "Verif.Kinetic.C03_fromto_ambiguous_beyond_ten_violated",
    "Verif.Kinetic.C03_smallStep_frame"
   ],
   "note": "C03_fromto_ambiguous_beyond_ten_violated shows the ten-phase limit in the statement is sharp."
  },
  {
   "property": "C04",
   "status": "proved",
   "theorems": [
    "Verif.Kinetic.C04_logMaxTimeStep_is_greatest",
    "Verif.Kinetic.C04_transfer_within_mass",
    "Verif.Kinetic.C04_transfer_amount",
    "Verif.Kinetic.C04_first_receiver"
   ],
   "note": ""
  },
  {
   "property": "C05",
   "status": "proved",
   "theorems": [
    "Verif.Robust.C05_ratio_never_divides_by_zero",
    "Verif.Robust.C05_ratio_zero_denominator",
    "Verif.Robust.C05_ratio_sign",
    "Verif.Robust.C05_ratio_abs_le",
    "Verif.Robust.C05_ratio_relative_error",
    "Verif.Robust.C05_ratio_double_accurate",
    "Verif.Robust.C05_ratio_double_zero_denominator"
   ],
   "note": ""
  },
  {
   "property": "C06",
   "status": "proved",
   "theorems": [
    "Verif.Robust.C06_makePositive",
    "Verif.Robust.C06_makeBounded_projection",
    "Verif.Robust.C06_makeBounded_monotone",
    "Verif.Robust.C06_makeBounded_strictly_inside",
    "Verif.Robust.C06_makeBounded_exceeds_negative_bound_violated",
    "Verif.Robust.C06_safeArgExp",
    "Verif.Robust.C06_safeArgExp_range"
   ],
   "note": "C06_makeBounded_exceeds_negative_bound_violated shows why hi>0 is needed."
  },
  {
   "property": "C07",
   "status": "proved",
   "theorems": [
    "Verif.Robust.C07_pow_eq_zpow"
   ],
   "note": ""
  },
  {
   "property": "C08",
   "status": "proved",
   "theorems": [
    "Verif.RootFind.C08_regulaFalsi_keeps_bracket",
    "Verif.RootFind.C08_regulaFalsi_always_sign_change",
    "Verif.RootFind.C08_regulaFalsi_near_true_root",
    "Verif.RootFind.C08_negative_xtol_never_terminates_violated",
    "Verif.RootFind.C08_initial_bracket",
    "Verif.RootFind.C08_samples_outside"
   ],
   "note": "C08_negative_xtol_never_terminates_violated shows why xtol>=0 is needed."
  },
  {
   "property": "C09",
   "status": "proved",
   "theorems": [
    "Verif.RootFind.C09_success_outside_interval_violated",
    "Verif.RootFind.C09_bracketed_root_in_interval",
    "Verif.RootFind.C09_root_range"
   ],
   "note": "C09_success_outside_interval_violated is the concrete SUCCESS outside the interval mentioned in the statement."
  },
  {
   "property": "C10",
   "status": "proved",
   "theorems": [
    "Verif.RootFind.C10_newton_success",
    "Verif.RootFind.C10_zero_target_always_fails_violated",
    "Verif.RootFind.C10_unclamped_success_violated",
    "Verif.RootFind.C10_newton_no_fail_flag"
   ],
   "note": "The two _violated theorems are the limits named in the statement."
  },
  {
   "property": "C11",
   "status": "proved",
   "theorems": [
    "Verif.RootFind.C11_bisect_success",
    "Verif.RootFind.C11_bisect_halves",
    "Verif.RootFind.C11_findRoot_success",
    "Verif.RootFind.C11_findRoot_inside",
    "Verif.RootFind.C11_findRoot_bracketed"
   ],
   "note": ""
  },
  {
   "property": "C12",
   "status": "proved",
   "theorems": [
    "Verif.PTE.C12_sum_neumaier"
   ],
   "note": ""
  },
  {
   "property": "C13",
   "status": "partial",
   "theorems": [
    "Verif.PTE.C13_rhoT_sums_to_one_partial",
    "Verif.PTE.C13_violated",
    "Verif.PTE.C13_rhoT_masses",
    "Verif.PTE.C13_fixed_and_rhoU",
    "Verif.PTE.C13_rhoU_energy"
   ],
   "note": "C13_rhoT_sums_to_one_partial: C13 (what is missing: the total is always 1, not the `vfrac_total` given to the constructor, see `C13_violated`): after every RhoT trial step, whatever the step, the volume fractions sum to exactly 1. C13_violated: C13 is violated for a mixture that occupies only part of the cell: with `vfrac_total = 1/2` and fractions that do sum to 1/2, the trial step with `dx = 0` already changes the sum to 1."
  },
  {
   "property": "C14",
   "status": "proved",
   "theorems": [
    "Verif.PTE.C14_enforceMassVolumesSum",
    "Verif.PTE.C14_mass_error"
   ],
   "note": ""
  },
  {
   "property": "C15",
   "status": "proved",
   "theorems": [
    "Verif.PTE.C15_enforceEnergiesSum"
   ],
   "note": ""
  },
  {
   "property": "C16",
   "status": "proved",
   "theorems": [
    "Verif.PTE.C16_scratch_layout",
    "Verif.PTE.C16_cache_slots"
   ],
   "note": ""
  },
  {
   "property": "C17",
   "status": "proved",
   "theorems": [
    "Verif.PTE.C17_record_faithful",
    "Verif.PTE.C17_bounded",
    "Verif.PTE.C17_line_search",
    "Verif.PTE.C17_ideal_guess",
    "Verif.PTE.C17_ideal_rhoU_room",
    "Verif.PTE.C17_tguess_pressure",
    "Verif.PTE.C17_ideal_equilibrium"
   ],
   "note": ""
  },
  {
   "property": "C18",
   "status": "partial",
   "theorems": [
    "Verif.PTE.C18_converged",
    "Verif.PTE.C18_violated",
    "Verif.PTE.C18_converged_no_fixup",
    "Verif.PTE.C18_rhoT_meaning",
    "Verif.PTE.C18_pt_meaning",
    "Verif.PTE.C18_fixedT_meaning",
    "Verif.PTE.C18_fixedP_meaning",
    "Verif.PTE.C18_rhoU_meaning_partial",
    "Verif.PTE.C18_rhoU_energy_violated",
    "Verif.PTE.C18_default_tolerances",
    "Verif.PTE.C18_converged_is_acceptable",
    "Verif.PTE.C18_sufficient_tolerances",
    "Verif.PTE.C18_assigned_tolerances_violated"
   ],
   "note": "C18_violated: C18 is violated in the slow-convergence branch: there is a system for which the driver, with the default parameters, reports `converged` although the state it returns passes neither the convergence test nor the weaker acceptance test, and has a larger error than the state it started from. C18_rhoU_meaning_partial: C18, RhoU: neighbouring pressures and temperatures agree within the tolerances (nothing is said about volumes or energies, see `C18_rhoU_energy_violated`). C18_rhoU_energy_violated: C18 is violated for RhoU: with the default tolerances the test passes for any number of materials in pressure and temperature equilibrium however far the volumes and energies are from their totals. C18_assigned_tolerances_violated: C18 is violated for changed tolerances: the relaxed tolerances are computed when the parameters are made and do not follow a later assignment. After tightening the tolerances however far (here for the PT solver, to `ε` each) the solver still accepts a stalled state with residuals up to 1e-4; after loosening them beyond 1e-4 a converged state is not acceptable."
  },
  {
   "property": "C19",
   "status": "proved",
   "theorems": [
    "Verif.PTE.C19_rhoT",
    "Verif.PTE.C19_rhoT_newton",
    "Verif.PTE.C19_pt",
    "Verif.PTE.C19_fixedT",
    "Verif.PTE.C19_fixedP",
    "Verif.PTE.C19_rhoU",
    "Verif.PTE.C19_rhoT_differences",
    "Verif.PTE.C19_fixedT_differences",
    "Verif.PTE.C19_fixedP_differences",
    "Verif.PTE.C19_rhoU_differences",
    "Verif.PTE.C19_pt_differences",
    "Verif.PTE.C19_pt_zero_pressure_violated"
   ],
   "note": "C19_pt_zero_pressure_violated shows why a non-zero pressure is needed."
  },
  {
   "property": "C20",
   "status": "partial",
   "theorems": [
    "Verif.PTE.C20_fail_iff",
    "Verif.PTE.C20_success_sum",
    "Verif.PTE.C20_caps_partial",
    "Verif.PTE.C20_violated",
    "Verif.PTE.C20_redistribution_pass"
   ],
   "note": "C20_caps_partial: C20 (what is missing: the final normalisation may raise a capped fraction, see `C20_violated`): if the water-filling loop stops because less than `1e-12` of volume had to be moved, the final fractions are the capped ones times one common factor `vt / (s + SMALL)`, where `s` is their sum; so when the capped fractions still add up to `vt` no maximum is exceeded. C20_violated: C20 is violated: with three materials, guesses (0.8, 0.15, 0.05) and maxima (0.1, 0.2, 1), the routine succeeds but the first volume fraction ends more than 10% above its maximum."
  },
  {
   "property": "C21",
   "status": "proved",
   "theorems": [
    "Verif.PTE.C21_solve_one",
    "Verif.PTE.C21_solve_two"
   ],
   "note": ""
  },
  {
   "property": "C22",
   "status": "partial",
   "theorems": [
    "Verif.PTE.C22_fixedT",
    "Verif.PTE.C22_fixedP",
    "Verif.PTE.C22_fixedP_minimum_density",
    "Verif.PTE.C22_rhoU",
    "Verif.PTE.C22_rhoT_partial",
    "Verif.PTE.C22_pt_partial",
    "Verif.PTE.C22_pt_max_pressure_violated",
    "Verif.PTE.C22_rhoT_violated"
   ],
   "note": "C22_rhoT_partial: C22, RhoT, for mixtures filling the cell (`∑ vfrac = 1`): after `ScaleDx` every trial step keeps all volume fractions and the temperature positive; if no material is beyond its maximum volume fraction beforehand, none goes beyond it. C22_pt_partial: C22, PT: after `ScaleDx` every trial step keeps the temperature positive and the pressure above each material's minimum pressure (scaled), if it was above; the scale lies in `[0,1]`. Missing: the maximum pressure, see `C22_pt_max_pressure_violated`. C22_pt_max_pressure_violated: C22 is violated by PT for the maximum pressure: `ScaleDx` divides the distance to `Pmax` by the temperature increment `dx[0]` instead of the pressure increment `dx[1]` (`mixed_cell_models.hpp:1403`), so a full accepted step can overshoot `MaximumPressureAtTemperature`. C22_rhoT_violated: C22 is violated by RhoT when some material is already beyond its maximum: the `continue` skips `dx[idx++]` (`mixed_cell_models.hpp:1131-1138`), the next material is then limited with the wrong entry of `dx`, and a material that was within its maximum is pushed beyond it."
  },
  {
   "property": "C23",
   "status": "proved",
   "theorems": [
    "Verif.PTE.C23_approx_temperature"
   ],
   "note": ""
  },
  {
   "property": "C24",
   "status": "proved",
   "theorems": [
    "Verif.CApi.C24_exclusive_rows",
    "Verif.CApi.C24_schedule_independent"
   ],
   "note": ""
  },
  {
   "property": "C25",
   "status": "partial",
   "theorems": [
    "Verif.CApi.C25_cache_partial",
    "Verif.CApi.C25_cache_violated",
    "Verif.CApi.C25_row_overrun_violated",
    "Verif.CApi.C25_rhoE_fits_iff",
    "Verif.CApi.C25_solver_row",
    "Verif.CApi.C25_cache_row"
   ],
   "note": "C25_cache_partial: C25 (what does hold): in (P,T) mode there is no solver and the cache fits the row exactly; in (rho,e) mode the cache is clear of all solver arrays for one or two participating materials. C25_cache_violated: C25 is violated in (rho,T) and (rho,P) mode for every number of participating materials, and in (rho,e) mode for three or more: the first lambda slot is a cell of a solver array (`dpdv`, `dpdv`, `vtemp`). C25_row_overrun_violated: C25 is violated: with one or two materials, all participating, the (rho,e) lambda cache runs past the end of the scratch row (into the next cell's row), and with two materials the (rho,P) solver's own arrays do."
  },
  {
   "property": "C26",
   "status": "proved",
   "theorems": [
    "Verif.CApi.C26_mass_fractions_restored",
    "Verif.CApi.C26_inputs_unchanged",
    "Verif.CApi.C26_pmax",
    "Verif.CApi.C26_some_material",
    "Verif.CApi.C26_energy_sum_rhoT",
    "Verif.CApi.C26_PT_totals"
   ],
   "note": ""
  },
  {
   "property": "C27",
   "status": "partial",
   "theorems": [
    "Verif.CApi.C27_modifiers",
    "Verif.CApi.C27_repeatable_partial",
    "Verif.CApi.C27_scale_shift_kept",
    "Verif.CApi.C27_repeatable_violated"
   ],
   "note": "C27_repeatable_partial: C27 (partial): without flag 3 the caller's parameter array is untouched, so a second identical call stores the same EOS. C27_repeatable_violated: C27 is violated with flag 3: whatever the root finder returns, for a reference density 2 and a P-alpha parameter 4 the first call overwrites the parameter by a density close to 1/2, and the same call repeated with the same array stores a ramp with a different initial density (close to 4)."
  },
  {
   "property": "C28",
   "status": "proved",
   "theorems": [
    "Verif.Mods.C28_scaled_queries",
    "Verif.Mods.C28_scaled_other",
    "Verif.Mods.C28_scaled_pressure_derivatives"
   ],
   "note": ""
  },
  {
   "property": "C29",
   "status": "proved",
   "theorems": [
    "Verif.Mods.C29_shifted_queries",
    "Verif.Mods.C29_shifted_other",
    "Verif.Mods.C29_shifted_inversions",
    "Verif.Mods.C29_shifted_thermodynamics",
    "Verif.Mods.C29_shift_zero_and_compose"
   ],
   "note": ""
  },
  {
   "property": "C30",
   "status": "proved",
   "theorems": [
    "Verif.Mods.C30_ramp_is_max",
    "Verif.Mods.C30_ramp_monotone",
    "Verif.Mods.C30_ramp_regularisation",
    "Verif.Mods.C30_ramp_inverse",
    "Verif.Mods.C30_palpha_points",
    "Verif.Mods.C30_ramp_accepts_decreasing_violated",
    "Verif.Mods.C30_above_ramp",
    "Verif.Mods.C30_ramp_twins",
    "Verif.Mods.C30_ramp_continuous",
    "Verif.Mods.C30_ramped_pressure_continuous"
   ],
   "note": "C30_ramp_accepts_decreasing_violated is the accepted bad parameter set named in the statement."
  },
  {
   "property": "C31",
   "status": "proved",
   "theorems": [
    "Verif.Mods.C31_floored_other",
    "Verif.Mods.C31_floored_queries",
    "Verif.Mods.C31_floored_idempotent",
    "Verif.Mods.C31_floored_never_below"
   ],
   "note": ""
  },
  {
   "property": "C32",
   "status": "proved",
   "theorems": [
    "Verif.Mods.C32_relativistic_formula",
    "Verif.Mods.C32_relativistic_formula_temperature",
    "Verif.Mods.C32_relativistic_other",
    "Verif.Mods.C32_relativistic_causal",
    "Verif.Mods.C32_relativistic_transparent",
    "Verif.Mods.C32_relativistic_twin"
   ],
   "note": ""
  },
  {
   "property": "C33",
   "status": "proved",
   "theorems": [
    "Verif.Mods.C33_reference_sum",
    "Verif.Mods.C33_parts_sum",
    "Verif.Mods.C33_parts_sum_by_energy",
    "Verif.Mods.C33_part_queries",
    "Verif.Mods.C33_part_thermodynamics"
   ],
   "note": ""
  },
  {
   "property": "C34",
   "status": "partial",
   "theorems": [
    "Verif.Mods.C34_base_units",
    "Verif.Mods.C34_base_units_violated",
    "Verif.Mods.C34_base_units_temperature",
    "Verif.Mods.C34_unit_queries",
    "Verif.Mods.C34_unit_other",
    "Verif.Mods.C34_unit_fill",
    "Verif.Mods.C34_unit_inversions",
    "Verif.Mods.C34_unit_thermodynamics",
    "Verif.Mods.C34_unit_identity_compose",
    "Verif.Mods.C34_unit_derivatives"
   ],
   "note": "C34_base_units_violated: C34 fails for the documented convention \"multiply by the unit to get cgs\" (as in the library's own test: microseconds, `time_unit = 1e-6`): one `cm^2/us^2` is `1e12 erg/g`, but the stored factor is `1e-12`."
  },
  {
   "property": "C35",
   "status": "proved",
   "theorems": [
    "Verif.Types.C35_transform",
    "Verif.Types.C35_members_exact",
    "Verif.Types.C35_init_in_variant",
    "Verif.Types.C35_no_duplicates"
   ],
   "note": ""
  },
  {
   "property": "C36",
   "status": "proved",
   "theorems": [
    "Verif.Gases.Ideal.C36_ideal_consistent",
    "Verif.Gases.Ideal.C36_ideal_round_trip",
    "Verif.Gases.Ideal.C36_ideal_nonneg",
    "Verif.Gases.Ideal.C36_ideal_inversions",
    "Verif.Gases.Ideal.C36_ideal_pt_derivatives",
    "Verif.Gases.Ideal.C36_ideal_fill"
   ],
   "note": ""
  },
  {
   "property": "C37",
   "status": "proved",
   "theorems": [
    "Verif.Gases.Stiff.C37_stiff_consistent",
    "Verif.Gases.Stiff.C37_stiff_floors",
    "Verif.Gases.Stiff.C37_stiff_inversion",
    "Verif.Gases.Stiff.C37_stiff_fill"
   ],
   "note": ""
  },
  {
   "property": "C38",
   "status": "partial",
   "theorems": [
    "Verif.Gases.Noble.C38_noble_consistent",
    "Verif.Gases.Noble.C38_noble_floors",
    "Verif.Gases.Noble.C38_noble_inversion",
    "Verif.Gases.Noble.C38_noble_fill_partial",
    "Verif.Gases.Noble.C38_noble_fill_pressure_violated"
   ],
   "note": "C38_noble_fill_partial: C38: `FillEos` of NobleAbel when energy is an output of (density, temperature) or (pressure, temperature), or an input. C38_noble_fill_pressure_violated: C38 is violated: `FillEos` with density and pressure as inputs computes an energy whose pressure is `rho * P`, not `P`, for every nonnegative state below the inverse covolume."
  },
  {
   "property": "C39",
   "status": "proved",
   "theorems": [
    "Verif.Gases.Carnahan.C39_carnahan_consistent",
    "Verif.Gases.Carnahan.C39_density_bracket",
    "Verif.Gases.Carnahan.C39_density_ideal_limit",
    "Verif.Gases.Carnahan.C39_fill_energy",
    "Verif.Gases.Carnahan.C39_density_accuracy"
   ],
   "note": ""
  },
  {
   "property": "C40",
   "status": "proved",
   "theorems": [
    "Verif.EosMisc.Jwl.C40_jwl_density_accuracy",
    "Verif.EosMisc.Jwl.C40_jwl_round_trip",
    "Verif.EosMisc.Jwl.C40_jwl_consistent",
    "Verif.EosMisc.Jwl.C40_jwl_pressure_monotone",
    "Verif.EosMisc.Jwl.C40_jwl_density_energy",
    "Verif.EosMisc.Jwl.C40_jwl_energy_from_pressure"
   ],
   "note": ""
  },
  {
   "property": "C41",
   "status": "partial",
   "theorems": [
    "Verif.Grun.Grun.C41_gruneisen_round_trip",
    "Verif.Grun.Grun.C41_gruneisen_clamps",
    "Verif.Grun.Grun.C41_gruneisen_heat_capacity",
    "Verif.Grun.Grun.C41_gruneisen_gruneisen",
    "Verif.Grun.Grun.C41_gruneisen_continuous_at_reference",
    "Verif.Grun.Grun.C41_gruneisen_bulk",
    "Verif.Grun.Grun.C41_gruneisen_kink_violated",
    "Verif.Grun.Grun.C41_gruneisen_gruneisen_above_max_violated",
    "Verif.Grun.Grun.C41_gruneisen_minimum_pressure",
    "Verif.Grun.Grun.C41_gruneisen_density_energy_expansion_partial",
    "Verif.Grun.Grun.C41_gruneisen_density_energy_compression_partial",
    "Verif.Grun.Grun.C41_gruneisen_fill_partial",
    "Verif.Grun.Grun.C41_gruneisen_fill_overwrites_violated",
    "Verif.Grun.Grun.C41_gruneisen_minimum_energy",
    "Verif.Grun.Grun.C41_gruneisen_density_accuracy",
    "Verif.Grun.Grun.C41_gruneisen_density_accuracy_compression"
   ],
   "note": "C41_gruneisen_kink_violated: C41 is violated at the reference density: the one-sided slopes of the pressure differ by `(b - G0) e - G0 P0 / rho0`, so the pressure has a kink there unless that vanishes. C41_gruneisen_gruneisen_above_max_violated: C41 is violated above the maximum density: the pressure depends on the energy through the maximum density, the reported Gruneisen parameter times the actual density does not match. C41_gruneisen_density_energy_expansion_partial: C41 (partial): `DensityEnergyFromPressureTemperature` in expansion: for a requested pressure between the pressure at zero density and the pressure at the reference density, a call that does not abort returns a density in `[0, 1.1 rho0]` at the middle of an interval over which the pressure at that temperature crosses the requested one, with the energy at that density and temperature. How close: `C41_gruneisen_density_accuracy`. C41_gruneisen_density_energy_compression_partial: C41 (partial): the same in compression: for a requested pressure from the reference pressure up to the pressure at the largest stable density, provided the reference pressure is the smaller. C41_gruneisen_fill_partial: C41, C51: `FillEos` with density and energy as inputs and temperature or pressure requested: keeps its inputs and returns the direct queries. C41_gruneisen_fill_overwrites_violated: C41, C51 are violated: when temperature and pressure are inputs, `FillEos` replaces the density and energy even if they are inputs too; e.g. asking only for the bulk modulus changes the caller's density."
  },
  {
   "property": "C42",
   "status": "partial",
   "theorems": [
    "Verif.Grun.Grun.C42_maximum_pressure_is_a_density_violated",
    "Verif.Grun.Grun.C42_max_stable_density_partial"
   ],
   "note": "C42_maximum_pressure_is_a_density_violated: C42 is violated: what `MaximumPressureAtTemperature` returns is a density. Whenever the pressure still increases at the maximum density (the generic case), it returns the maximum density itself, whatever the units, and not the pressure there. C42_max_stable_density_partial: C42: whenever `MaxStableDensityAtTemperature` returns without the root finder, it is the maximum density, and the pressure then is nondecreasing there; otherwise it searched for a zero of the slope between a point where the slope is nonnegative and one where it is negative."
  },
  {
   "property": "C43",
   "status": "partial",
   "theorems": [
    "Verif.Davis.Reac.C43_reactants_round_trip",
    "Verif.Davis.Reac.C43_reactants_round_trip_energy",
    "Verif.Davis.Reac.C43_reactants_minimum_energy",
    "Verif.Davis.Reac.C43_reactants_heat_capacity",
    "Verif.Davis.Reac.C43_reactants_gruneisen",
    "Verif.Davis.Reac.C43_reactants_isentrope",
    "Verif.Davis.Reac.C43_reactants_isentrope_violated",
    "Verif.Davis.Reac.C43_reactants_bulk_partial",
    "Verif.Davis.Reac.C43_reactants_bulk_expansion",
    "Verif.Davis.Reac.C43_reactants_bulk_compression_violated",
    "Verif.Davis.Reac.C43_reactants_first_law",
    "Verif.Davis.Reac.C43_reactants_first_law_expansion_violated",
    "Verif.Davis.Reac.C43_reactants_density_energy_partial"
   ],
   "note": "C43_reactants_isentrope_violated: C43 is violated when `P0` is not zero: on the code's reference isentrope the energy's volume derivative is not minus the pressure, it misses it by `P0`. C43_reactants_bulk_partial: C43 (partial): what the bulk modulus is. It exceeds the isentropic derivative of the pressure by `Gamma P0`, and in compression by a further `phat rho0 y / ((1-y)^4 rho)` with `y = 1 - rho0/rho` (`phat = A^2 rho0 / 4B`): a 3 for a 2 in the derivative of `y^2/(1-y)^4`. C43_reactants_bulk_compression_violated: C43 is violated in compression: with `P0 = 0` (so that nothing else is wrong) the bulk modulus is never the isentropic derivative of the pressure, at any density above the reference density and any energy, for any parameters with `A ≠ 0`. C43_reactants_first_law_expansion_violated: C43 is violated below the reference density when `Z ≠ 0`: the Gruneisen parameter there is the constant `G0`, but the reference temperature still follows `G0 + Z (1 - rho0/rho)`; with `P0 = 0` the first law then fails at every positive temperature. C43_reactants_density_energy_partial: C43 (partial): `DensityEnergyFromPressureTemperature`. If the reference density is within `[1e-5, 1e3]` and the requested pressure lies between the pressures at those densities, a call that does not abort returns a density in that range at the middle of an interval over which the pressure at that temperature crosses the requested one, with the energy at that density and temperature. How close: `C43_reactants_density_accuracy`."
  },
  {
   "property": "C44",
   "status": "proved",
   "theorems": [
    "Verif.Davis.Prod.C44_products_round_trip",
    "Verif.Davis.Prod.C44_products_heat_gruneisen",
    "Verif.Davis.Prod.C44_products_isentrope",
    "Verif.Davis.Prod.C44_products_first_law",
    "Verif.Davis.Prod.C44_products_bulk",
    "Verif.Davis.Prod.C44_products_density_energy"
   ],
   "note": ""
  },
  {
   "property": "C45",
   "status": "partial",
   "theorems": [
    "Verif.MG.Usup.C45_mgusup_round_trip",
    "Verif.MG.Usup.C45_mgusup_entropy_twin",
    "Verif.MG.Usup.C45_mgusup_entropy_twin_violated",
    "Verif.MG.Usup.C45_mgusup_heat_gruneisen",
    "Verif.MG.Usup.C45_mgusup_entropy",
    "Verif.MG.Usup.C45_mgusup_bulk_energy",
    "Verif.MG.Usup.C45_mgusup_maximum_density",
    "Verif.MG.Usup.C45_mgusup_bulk_temperature_error",
    "Verif.MG.Usup.C45_mgusup_bulk_temperature_violated",
    "Verif.MG.Usup.C45_mgusup_first_law_partial",
    "Verif.MG.Usup.C45_mgusup_isothermal_bulk_partial",
    "Verif.MG.Usup.C45_mgusup_hugoniot_temperature_error",
    "Verif.MG.Usup.C45_mgusup_hugoniot_temperature_exists",
    "Verif.MG.Usup.C45_mgusup_first_law_small_violated",
    "Verif.MG.Usup.C45_mgusup_weak_shock_cools_violated"
   ],
   "note": "C45_mgusup_entropy_twin_violated: C45 is violated for negative entropies (which the by-temperature query reports): by energy, `1e-12` is reported. C45_mgusup_bulk_temperature_violated: C45 violated: in compression the bulk modulus by temperature is not the bulk modulus by energy at the same state (shown on the Hugoniot), for generic parameters. C45_mgusup_first_law_partial: C45 (partial): energy and pressure satisfy the first law at a state exactly when the computed Hugoniot temperature satisfies its differential equation there. (Whether it does is the next theorems' subject.) C45_mgusup_isothermal_bulk_partial: C45 (partial): the isothermal bulk modulus is `rho dP/drho` at constant temperature wherever the Hugoniot temperature satisfies its differential equation. C45_mgusup_first_law_small_violated: C45 is violated for small compressions and expansions: when `0 < |eta| < 1e-4` energy and pressure do not satisfy the first law, because the shock heating is added with the wrong sign. C45_mgusup_weak_shock_cools_violated: C45 is violated: behind a weak compression the exact Hugoniot is hotter than the isentrope `T0 exp(G0 eta)`, the computed one is colder."
  },
  {
   "property": "C46",
   "status": "partial",
   "theorems": [
    "Verif.MG.Power.C46_powermg_pressure",
    "Verif.MG.Power.C46_powermg_round_trip",
    "Verif.MG.Power.C46_powermg_entropy_twin_partial",
    "Verif.MG.Power.C46_powermg_heat_gruneisen",
    "Verif.MG.Power.C46_powermg_entropy",
    "Verif.MG.Power.C46_powermg_bulk_energy",
    "Verif.MG.Power.C46_powermg_bulk_energy_expansion_violated",
    "Verif.MG.Power.C46_powermg_bulk_temperature",
    "Verif.MG.Power.C46_powermg_bulk_temperature_cutoff_violated",
    "Verif.MG.Power.C46_powermg_bulk_energy_cutoff_violated",
    "Verif.MG.Power.C46_powermg_bulk_twin",
    "Verif.MG.Power.C46_powermg_first_law_expansion",
    "Verif.MG.Power.C46_powermg_first_law_cutoff_violated",
    "Verif.MG.Power.C46_powermg_isothermal_bulk_partial",
    "Verif.MG.Power.C46_powermg_first_law_compression_iff",
    "Verif.MG.Power.C46_powermg_hugoniot_temperature_error",
    "Verif.MG.Power.C46_powermg_hugoniot_temperature_exists",
    "Verif.MG.Power.C46_powermg_hugoniot_temperature_relative",
    "Verif.MG.Power.C46_powermg_negative_gruneisen_violated"
   ],
   "note": "C46_powermg_entropy_twin_partial: C46: by-temperature and by-energy entropies agree for nonnegative temperature when the entropy is nonnegative; when it is negative (the by-temperature query reports it) the by-energy query reports `1e-12`. C46_powermg_bulk_energy_expansion_violated: C46 is violated: in expansion, above the pressure cutoff, the by-energy bulk modulus is the isentropic derivative only if the reference density happens to be 1 (or the Gruneisen parameter vanishes): the energy on the reference curve lacks its division by the reference density. C46_powermg_bulk_temperature_cutoff_violated: C46 is violated below the pressure cutoff: the by-temperature bulk modulus is the isentropic derivative only if the Gruneisen parameter vanishes: it lacks `rho0/rho G0 Pmin / 2`. C46_powermg_bulk_energy_cutoff_violated: C46 is violated below the pressure cutoff: the by-energy bulk modulus is the isentropic derivative only at one density (or for a vanishing Gruneisen parameter): it is built with the energy of a curve that the energy query does not use. C46_powermg_first_law_cutoff_violated: C46 is violated: below the pressure cutoff energy and pressure never satisfy the first law. C46_powermg_isothermal_bulk_partial: C46 (partial): the isothermal bulk modulus is the by-temperature bulk modulus less `rho0/rho G0^2 Cv rho0 T`, and is `rho dP/drho` at constant temperature in expansion down to the cutoff, where the first law holds exactly. C46_powermg_negative_gruneisen_violated: C46 is violated for a negative Gruneisen parameter (which the constructor accepts): in compression the series is cut after its first term, and energy and pressure satisfy the first law only where the neglected term happens to vanish."
  },
  {
   "property": "C47",
   "status": "proved",
   "theorems": [
    "Verif.VinetEos.Vinet.C47_vinet_round_trip",
    "Verif.VinetEos.Vinet.C47_vinet_pressure",
    "Verif.VinetEos.Vinet.C47_vinet_first_law",
    "Verif.VinetEos.Vinet.C47_vinet_heat_gruneisen",
    "Verif.VinetEos.Vinet.C47_vinet_entropy",
    "Verif.VinetEos.Vinet.C47_vinet_isothermal",
    "Verif.VinetEos.Vinet.C47_vinet_bulk",
    "Verif.VinetEos.Vinet.C47_vinet_consistent",
    "Verif.VinetEos.Vinet.C47_vinet_bulk_clamped_violated"
   ],
   "note": "C47_vinet_bulk_clamped_violated shows the clamp named in the statement is active in strong expansion."
  },
  {
   "property": "C48",
   "status": "partial",
   "theorems": [
    "Verif.EosMisc.Sap.C48_sap_density_derivative",
    "Verif.EosMisc.Sap.C48_sap_energy_derivative",
    "Verif.EosMisc.Sap.C48_sap_gruneisen_violated",
    "Verif.EosMisc.Sap.C48_sap_bulk_violated",
    "Verif.EosMisc.Sap.C48_sap_temperature_violated"
   ],
   "note": "C48_sap_gruneisen_violated: C48 is violated: the Gruneisen parameter is right only at unit density (or where the pressure does not depend on the energy). C48_sap_bulk_violated: C48 is violated: the bulk modulus omits the energy term of the isentropic derivative, so it is right only where pressure or `dP/de` vanishes. C48_sap_temperature_violated: C48 is violated: the temperature queries are stubs; no positive temperature survives the round trip."
  },
  {
   "property": "C49",
   "status": "proved",
   "theorems": [
    "Verif.EosMisc.Electrons.C49_electrons_are_ideal",
    "Verif.EosMisc.Electrons.C49_electrons_consistent",
    "Verif.EosMisc.Electrons.C49_electrons_ideal_gas_law",
    "Verif.EosMisc.Electrons.C49_electrons_scale",
    "Verif.EosMisc.Electrons.C49_electrons_neutral",
    "Verif.EosMisc.Electrons.C49_electrons_round_trip",
    "Verif.EosMisc.Electrons.C49_electrons_density_energy"
   ],
   "note": ""
  },
  {
   "property": "C50",
   "status": "partial",
   "theorems": [
    "Verif.Eospac.C50_eospac",
    "Verif.Mods.C50_base_class",
    "Verif.Mods.C50_any_order",
    "Verif.Mods.C50_in_place",
    "Verif.Mods.C50_shifted",
    "Verif.Mods.C50_floored",
    "Verif.Mods.C50_ramped",
    "Verif.Mods.C50_scaled",
    "Verif.Mods.C50_units_queries_partial",
    "Verif.Mods.C50_scaled_over_base_violated",
    "Verif.Mods.C50_scaled_over_base_not_elementwise_violated",
    "Verif.Mods.C50_scaled_shifted_violated",
    "Verif.Mods.C50_units_minE_violated",
    "Verif.Mods.C50_units_minE_partial"
   ],
   "note": "C50_units_queries_partial: C50: a unit change over an EOS that honours the `Transform` argument honours it for the two-input queries. C50_scaled_over_base_violated: C50 is violated: scaling over an EOS with the base-class array calls (every EOS but EOSPAC) ignores the scale when a scratch pointer is passed: the result is the unscaled EOS's. C50_scaled_over_base_not_elementwise_violated: C50 is violated, concretely. C50_scaled_shifted_violated: C50 is violated: even over an EOS that honours the `Transform` argument, a scale outside a shift is wrong with scratch: the shift is subtracted from the caller's energy before the scale is applied. C50_units_minE_violated: C50 is violated: the array version of the minimum energy of `UnitSystem` multiplies by the energy unit instead of dividing by it. C50_units_minE_partial: C50: what the array minimum energy of `UnitSystem` returns over an EOS that honours the `Transform` argument: the right value times the square of the energy unit."
  },
  {
   "property": "C51",
   "status": "partial",
   "theorems": [
    "Verif.VinetEos.Vinet.C51_vinet_partial",
    "Verif.VinetEos.Vinet.C51_vinet_overwrites_temperature_violated",
    "Verif.Base.C51_direct",
    "Verif.Base.C51_gas_inputs_kept",
    "Verif.Base.C51_gas_aborts_iff",
    "Verif.Base.C51_gas_state",
    "Verif.Base.C51_gas_density_not_computed_violated",
    "Verif.Base.C51_gas_energy_not_computed_violated",
    "Verif.Base.C51_direct_ignores_requests_violated",
    "Verif.Base.C51_mg_overwrites_energy_violated",
    "Verif.Base.C51_mg_partial",
    "Verif.Base.C51_units",
    "Verif.Base.C51_ramp_partial",
    "Verif.Base.C51_ramp_overwrites_bmod_violated",
    "Verif.Base.C51_shift_partial",
    "Verif.Base.C51_shift_loses_energy_violated",
    "Verif.Base.C51_shift_changes_input_energy_violated",
    "Verif.Base.C51_shift_scale_abort_violated",
    "Verif.Base.C51_scale_partial",
    "Verif.Base.C51_scale_loses_outputs_violated",
    "Verif.Base.C51_scale_changes_input_energy_violated",
    "Verif.Base.C51_total_agrees"
   ],
   "note": "C51_vinet_partial: C51 for Vinet: the call aborts exactly when the density, or both temperature and energy, are requested; otherwise, unless both temperature and energy are inputs, every input is kept, and the outputs are the direct queries at the resulting state. C51_vinet_overwrites_temperature_violated: C51 is violated for Vinet: with density, temperature and energy all inputs the temperature is overwritten. C51_gas_density_not_computed_violated: C51 is violated: asking for the density without the energy returns normally with the density untouched: the call does not fail and does not compute the requested output. C51_gas_energy_not_computed_violated: C51 is violated: asking for the energy alone returns normally with the energy untouched. C51_direct_ignores_requests_violated: C51 is violated for JWL and the Davis EOS: every call returns, and a requested density or energy is never computed. C51_mg_overwrites_energy_violated: C51 is violated for MGUsup and PowerMG: with density, temperature and energy all inputs the energy is overwritten by the energy at the temperature. C51_mg_partial: C51 for MGUsup and PowerMG: the call aborts exactly when the density, or both temperature and energy, are requested; otherwise, unless both temperature and energy are inputs, every input is kept; and the outputs always are the direct queries at the resulting state, which has the given temperature. C51_ramp_partial: C51 for the ramp: every input but the bulk modulus is kept. C51_ramp_overwrites_bmod_violated: C51 is violated: the ramp's `FillEos` overwrites the bulk modulus even when it is an input. C51_shift_partial: C51 for `ShiftedEOS` over an EOS whose preferred input is density and energy: when the energy is an input every input is kept and (derived outputs being computed by the wrapped EOS) the outputs are the shifted direct queries. C51_shift_loses_energy_violated: C51 is violated by `ShiftedEOS`: with preferred input density and energy, a requested energy is computed into a local variable and lost. C51_shift_changes_input_energy_violated: C51 is violated by `ShiftedEOS`: with preferred input density and temperature, an energy passed as input comes back with the shift added. C51_shift_scale_abort_violated: C51 is violated: over an EOS whose preferred input is neither pair (IdealGas lists density, energy, temperature and pressure), `FillEos` of the shifted or scaled EOS aborts for every request, although the unshifted EOS accepts it. C51_scale_partial: C51 for `ScaledEOS` over an EOS whose preferred input is density and energy, when neither density nor energy is requested. C51_scale_loses_outputs_violated: C51 is violated by `ScaledEOS`: a requested density never reaches the caller, nor (preferred input density and energy) does a requested energy. C51_scale_changes_input_energy_violated: C51 is violated by `ScaledEOS`: an input energy is rescaled (preferred input density and temperature)."
  },
  {
   "property": "C52",
   "status": "partial",
   "theorems": [
    "Verif.Base.C52_affine_partial",
    "Verif.Base.C52_affine_no_guess",
    "Verif.Base.C52_guess_ignored_violated",
    "Verif.Base.C52_guess_below_violated",
    "Verif.Base.C52_continuous_partial",
    "Verif.Base.C52_density_in_bounds",
    "Verif.Base.C52_density_success",
    "Verif.Base.C52_min_energy",
    "Verif.Base.C52_min_energy_lambda_violated",
    "Verif.Base.C52_accuracy",
    "Verif.Base.C52_accuracy_no_guess"
   ],
   "note": "C52_affine_partial: C52: base-class energy from density and pressure, for an EOS whose pressure at fixed density is an affine function of the energy (every Mie-Gruneisen EOS) with the requested pressure attained between the energy bounds: for every incoming guess not below the lower bound, the returned energy is within `EPS` of the energy with that pressure, or its pressure is within `EPS` of the request. C52_guess_ignored_violated: C52 is violated: the caller's guess is discarded exactly when it is usable. Any two guesses strictly inside the energy bounds give the same result. C52_guess_below_violated: C52 is violated: a guess below the lower bound is used as it is; here the EOS is `P = e`, `e = T`, the request `P = 0` is met exactly at the lower bound, the guess is `-2` and the answer is `-1`. C52_continuous_partial: C52 for a continuous, not necessarily affine, pressure and a guess inside the bounds: the result lies between the bounds and inside an interval with an exact solution; `C61_success_meaning` says when it is within `EPS` of it. C52_min_energy_lambda_violated: C52 is violated for an EOS whose energy depends on the lambda: the lambda passed by the caller is ignored, and the value returned is above an energy the EOS takes at that density and lambda."
  },
  {
   "property": "C53",
   "status": "proved",
   "theorems": [
    "Verif.Types.C53_index_first_occurrence",
    "Verif.Types.C53_read_after_writes",
    "Verif.Types.C53_absent",
    "Verif.Types.C53_numeric_index_ignored",
    "Verif.Types.C53_raw_pointer",
    "Verif.Types.C53_raw_pointer_must"
   ],
   "note": ""
  },
  {
   "property": "C54",
   "status": "partial",
   "theorems": [
    "Verif.Ser.C54_serialize_size",
    "Verif.Ser.C54_roundtrip",
    "Verif.Ser.C54_roundtrip_shared_root",
    "Verif.Ser.C54_roundtrip_shared_peer",
    "Verif.Ser.C54_helmholtz_shared_violated",
    "Verif.Ser.C54_transformer_stale_violated",
    "Verif.Ser.C54_tables_aligned"
   ],
   "note": "C54_helmholtz_shared_violated: C54, violated for `Helmholtz`: deserialising into shared memory leaves every table in the source buffer (`Helmholtz::SetDynamicMemory` drops the settings), so the shared block is never read and the EOS dangles once the buffer is freed. C54_transformer_stale_violated: C54, violated for the energy transformer of `SpinerEOSDependsRhoSieTransformable`: its DataBox copies keep the addresses they had in the process that serialised the EOS, for every buffer, every setting. (With the identity transformer they are never read.)"
  },
  {
   "property": "C55",
   "status": "partial",
   "theorems": [
    "Verif.Ser.C55_bulk_size",
    "Verif.Ser.C55_bulk_shared_root",
    "Verif.Ser.C55_bulk_shared_peer",
    "Verif.Ser.C55_bulk_private_partial",
    "Verif.Ser.C55_bulk_private_violated",
    "Verif.Ser.C55_alignment_violated"
   ],
   "note": "C55_bulk_private_partial: C55, partial: without shared memory the bulk round trip is right when no EOS with tables comes after another EOS with tables (`Helmholtz` excepted, which ignores the settings). Missing: two table EOS in one container, which is false, see `C55_bulk_private_violated`. C55_bulk_private_violated: C55, violated: two table EOS, deserialised without shared memory. The loop adds the first EOS's size to a null pointer, and the second EOS's tables end up at addresses `[dynSize a, dynSize a + dynSize b)`, whatever the buffer. C55_alignment_violated: C55, violated alignment: in a bulk shared deserialisation the second EOS's tables start `dynSize a` bytes into the block. If the first EOS's phase names make that not a multiple of 8, a table of doubles is placed at a misaligned address, although the block itself is aligned."
  },
  {
   "property": "C56",
   "status": "proved",
   "theorems": [
    "Verif.Own.C56_no_double_free",
    "Verif.Own.C56_finalize_idempotent",
    "Verif.Own.C56_all_finalized_no_leak",
    "Verif.Own.C56_shallow_copy_violated"
   ],
   "note": "C56_shallow_copy_violated shows why plain copies are excluded."
  },
  {
   "property": "C57",
   "status": "partial",
   "theorems": [
    "Verif.FastLog.C57_inverse",
    "Verif.FastLog.C57_strictly_increasing",
    "Verif.FastLog.C57_continuous",
    "Verif.FastLog.C57_pow2_strictly_increasing",
    "Verif.FastLog.C57_agrees_with_log2",
    "Verif.FastLog.C57_quadratic_is_C1",
    "Verif.FastLog.C57_base10",
    "Verif.FastLog.C57_aliased_linear_exact",
    "Verif.FastLog.C57_aliased_roundtrip_violated",
    "Verif.FastLog.C57_aliased_quadratic_monotone",
    "Verif.FastLog.C57_aliased_quadratic_accuracy",
    "Verif.FastLog.C57_aliased_quadratic_not_injective_violated",
    "Verif.FastLog.C57_aliased_quadratic_roundtrip_exact_scale",
    "Verif.FastLog.C57_aliased_pow2_accuracy",
    "Verif.FastLog.C57_aliased_quadratic_roundtrip_literal",
    "Verif.FastLog.C57_log_type_decides",
    "Verif.FastLog.C57_log_types_differ"
   ],
   "note": "C57_aliased_roundtrip_violated: C57 violated: the literal `scale_down` has only 15 digits, so it is not `2^-52`; with it, taking the logarithm of a double and exponentiating back loses the value: every double above one comes back smaller, every double below one comes back larger, whatever the rounding of the products. C57_aliased_quadratic_not_injective_violated: C57 violated: in the upper half of every binade the default logarithm has slope below one unit per unit, so it is not injective: in every binade two adjacent doubles have the same logarithm, and no exponential can tell them apart."
  },
  {
   "property": "C58",
   "status": "proved",
   "theorems": [
    "Verif.Helm.C58_basis_derivatives",
    "Verif.Helm.C58_partition_of_unity",
    "Verif.Helm.C58_reported_derivatives",
    "Verif.Helm.C58_reported_derivatives_cubic",
    "Verif.Helm.C58_nodes",
    "Verif.Helm.C58_nodes_cubic",
    "Verif.Helm.C58_continuous_across_T",
    "Verif.Helm.C58_continuous_across_rho",
    "Verif.Helm.C58_continuous_cubic",
    "Verif.Helm.C58_reproduces_biquintics",
    "Verif.Helm.C58_reproduces_bicubics"
   ],
   "note": ""
  },
  {
   "property": "C59",
   "status": "proved",
   "theorems": [
    "Verif.Spiner.C59_log_roundtrip",
    "Verif.Spiner.C59_log_monotone",
    "Verif.Spiner.C59_exact_transforms",
    "Verif.Spiner.C59_divide_by_cv_iff",
    "Verif.Spiner.C59_shift_divide_iff",
    "Verif.Spiner.C59_all_iff",
    "Verif.Spiner.C59_clamp_loses_energy_violated"
   ],
   "note": "C59_clamp_loses_energy_violated is an instance outside the stated range."
  },
  {
   "property": "C60",
   "status": "partial",
   "theorems": [
    "Verif.Bounds.C60_log_bounds_ordered",
    "Verif.Bounds.C60_shrink",
    "Verif.Bounds.C60_log2lin",
    "Verif.Bounds.C60_num_points",
    "Verif.Bounds.C60_anchor_on_grid_partial",
    "Verif.Bounds.C60_range_not_contained_violated",
    "Verif.Bounds.C60_anchor_lost_violated",
    "Verif.Bounds.C60_degenerate_grid_violated",
    "Verif.Bounds.C60_check_interval_violated",
    "Verif.Bounds.C60_check_interval_inside",
    "Verif.Bounds.C60_one_grid_anchor_offset_violated",
    "Verif.Bounds.C60_two_grids_contiguous",
    "Verif.Bounds.C60_three_grids"
   ],
   "note": "C60_anchor_on_grid_partial: C60 (what holds): when the anchor is not too close to the upper end, measured by `N (a - min)(max - a) ≥ (max - min)^2`, the adjusted grid has the anchor as one of its points. C60_range_not_contained_violated: C60 violated: whenever the anchor adjustment acts, the requested upper end is outside the adjusted grid, by between one and two grid spacings. C60_anchor_lost_violated: C60 violated: with ten points on `[0, 1]` and the anchor at 0.89, the adjusted grid stops before the anchor: the point the table was to resolve is outside it. C60_degenerate_grid_violated: C60 violated: with three points on `[0, 1]` and the anchor at 0.6, the adjusted grid is a single point, `[0, 0]`. C60_check_interval_violated: C60 violated: a split or anchor point below a lower bound of zero (log10 of 1) is \"adjusted\" onto the bound, not into the interval. C60_one_grid_anchor_offset_violated: C60 violated: in the one-grid constructor the anchor's logarithm is taken without the offset: with a non-positive minimum, the grid point assigned to the anchor is the anchor minus the offset."
  },
  {
   "property": "C61",
   "status": "proved",
   "theorems": [
    "Verif.RootFind.C61_success_without_convergence_violated",
    "Verif.RootFind.C61_success_meaning",
    "Verif.RootFind.C61_chord_accuracy",
    "Verif.RootFind.C61_chord_no_failure",
    "Verif.RootFind.C61_rising_accuracy",
    "Verif.RootFind.C61_no_failure",
    "Verif.RootFind.C61_bounded_slope"
   ],
   "note": "C61_success_without_convergence_violated shows why a rate is needed."
  },
  {
   "property": "C62",
   "status": "proved",
   "theorems": [
    "Verif.PTE.C62_temperature_guess",
    "Verif.PTE.C62_temperature_guess_newton"
   ],
   "note": ""
  },
  {
   "property": "C63",
   "status": "partial",
   "theorems": [
    "Verif.CApi.C63_optional_partial",
    "Verif.CApi.C63_optional_violated"
   ],
   "note": "C63_optional_partial: C63 (partial): bulk-modulus and Grüneisen outputs are written exactly when their pointer is given. C63_optional_violated: C63 is violated for the heat capacity: it is written through a null pointer when only the Grüneisen pointer is given, and not written at all when only its own pointer is."
  },
  {
   "property": "C64",
   "status": "partial",
   "theorems": [
    "Verif.CApi.C64_pure_cell_partial",
    "Verif.CApi.C64_pure_cell_violated"
   ],
   "note": "C64_pure_cell_partial: C64 (partial): when the only participating material carries all the mass, (rho,e) mode returns that material's EOS temperature and pressure at the cell's density and energy. C64_pure_cell_violated: C64 is violated when negligible materials are present: an ideal-gas-like EOS (`T = e`, `P = rho T`), mass fractions 9/10 and 1/10, cutoff 1/2. At unit density and energy 1 the material's temperature is 1, but the call reports 81/100, and pressure 81/100."
  },
  {
   "property": "C65",
   "status": "partial",
   "theorems": [
    "Verif.Mods.C65_declared_suffices_partial",
    "Verif.Mods.C65_max_suffices",
    "Verif.Mods.C65_minE_overrun_violated",
    "Verif.Mods.C65_minE_partial"
   ],
   "note": "C65_declared_suffices_partial: C65: for every stack of modifiers, every two-input query and every length, the array call touches no scratch memory beyond what `scratch_size` declares for that query. C65_minE_overrun_violated: C65 is violated for the minimum energy: a shifted or floored EOSPAC table touches twice the declared scratch for `MinInternalEnergyFromDensity`, at every positive length. C65_minE_partial: C65: without a shift or floor in the stack, the minimum energy stays within its declared scratch."
  },
  {
   "property": "C66",
   "status": "partial",
   "theorems": [
    "Verif.Mods.C66_scaled_roundtrip_partial",
    "Verif.Mods.C66_scaled_roundtrip_violated",
    "Verif.Mods.C66_scaled_minE_violated",
    "Verif.Mods.C66_scaled_heat_capacity_violated"
   ],
   "note": "C66_scaled_roundtrip_partial: C66 (positive part): if the wrapped energy does not depend on density, temperature from the energy of a scaled EOS recovers the temperature. C66_scaled_roundtrip_violated: C66 is violated: for a wrapped EOS that round-trips everywhere, `ScaledEOS` does not recover the temperature from the energy it returned at that temperature. C66_scaled_minE_violated: C66 is violated: the minimum energy of `ScaledEOS` is not the wrapped minimum energy in scaled units: it is off by the factor `s`, so that it can lie above the energy at a positive temperature. C66_scaled_heat_capacity_violated: C66 is violated: the heat capacity returned is that of the wrapped EOS, not `s` times it, although the energy returned is `s` times the wrapped energy."
  },
  {
   "property": "C67",
   "status": "partial",
   "theorems": [
    "Verif.Mods.C67_pt_inversion_partial",
    "Verif.Mods.C67_scaled_pressure_partial",
    "Verif.Mods.C67_scaled_violated",
    "Verif.Mods.C67_ramp_violated"
   ],
   "note": "C67_pt_inversion_partial: C67: the inversion by pressure and temperature survives a shift, a change of units, an energy floor, the relativistic modifier and a Z split. C67_scaled_pressure_partial: C67: the density returned by a scaled EOS has the requested pressure (its energy, however, need not be the one its own energy query returns, see the violation). C67_scaled_violated: C67 is violated: a wrapped EOS that inverts exactly, scaled by 2, returns an energy different from the energy query at the returned density and temperature. C67_ramp_violated: C67 is violated: under a ramp the density returned is the wrapped EOS's, at which the ramped pressure is not the requested one."
  },
  {
   "property": "C68",
   "status": "partial",
   "theorems": [
    "Verif.Mods.C68_p_inversion_partial",
    "Verif.Mods.C68_scaled_violated",
    "Verif.Mods.C68_zsplit_violated",
    "Verif.Mods.C68_zsplit_factor_partial"
   ],
   "note": "C68_p_inversion_partial: C68: the inversion by density and pressure survives a shift, a change of units, the relativistic modifier, and an energy floor when the returned energy is not below the floor. C68_scaled_violated: C68 is violated by `ScaledEOS`: it returns the wrapped EOS's energy without scaling it back. C68_zsplit_violated: C68 is violated by `ZSplit`: the part's pressure is handed to the wrapped EOS as if it were the total pressure. C68_zsplit_factor_partial: C68: how far off: on any wrapped EOS that inverts exactly, the split EOS's energy has the part share of the requested pressure instead of the requested pressure."
  },
  {
   "property": "C69",
   "status": "partial",
   "theorems": [
    "Verif.Mods.C69_relativistic_fill_violated"
   ],
   "note": "C69_relativistic_fill_violated: C69 is violated: `FillEos` and the reference state of a relativistic EOS return the wrapped (non-relativistic) bulk modulus, not the one the direct query returns at the same state."
  },
  {
   "property": "C70",
   "status": "partial",
   "theorems": [
    "Verif.Mods.C70_ramp_bulk_on_ramp_partial",
    "Verif.Mods.C70_above_ramp_partial",
    "Verif.Mods.C70_bulk_below_r0_violated",
    "Verif.Mods.C70_gruneisen_on_ramp_violated"
   ],
   "note": "C70_ramp_bulk_on_ramp_partial: C70: on the two rising segments of the ramp the bulk modulus returned is the isentropic one of the pressure returned. C70_above_ramp_partial: C70: strictly above the ramp the Gruneisen parameter and the bulk modulus stay the derivatives of the pressure. C70_bulk_below_r0_violated: C70 is violated below `r0`: whenever the wrapped EOS is in tension there (continuous negative pressure), the ramped pressure is identically zero nearby but the bulk modulus returned is `rho*a/r0 > 0`, for every accepted ramp. C70_gruneisen_on_ramp_violated: C70 is violated on the ramp: the pressure does not depend on the energy there, but the Gruneisen parameter returned is that of the wrapped EOS."
  },
  {
   "property": "C71",
   "status": "partial",
   "theorems": [
    "Verif.Types.C71_objects_by_type_partial",
    "Verif.Types.C71_vectorised_alias_violated"
   ],
   "note": "C71_objects_by_type_partial: C71: two index objects address different slots exactly when their *types* differ. C71_vectorised_alias_violated: C71 is violated: index objects of one vectorised type (`MassFractions(0)`, `MassFractions(1)`, ...) all address the same slot of a `VariadicIndexer`, whatever the list and the numbers."
  },
  {
   "property": "C72",
   "status": "partial",
   "theorems": [
    "Verif.Base.C72_finite_differences",
    "Verif.Base.C72_exact_on_affine",
    "Verif.Base.C72_uninitialised_guess_violated"
   ],
   "note": "C72_uninitialised_guess_violated: C72 is violated in the base class: the incoming density of the first inversion is uninitialised memory, and when the inversion uses it as a guess the derivative depends on it."
  },
  {
   "property": "C73",
   "status": "proved",
   "theorems": [
    "Verif.Base.C73_gibbs_twin",
    "Verif.Base.C73_gibbs_first_law"
   ],
   "note": ""
  },
  {
   "property": "C74",
   "status": "partial",
   "theorems": [
    "Verif.Gases.Carnahan.C74_carnahan_bmod_violated",
    "Verif.Gases.Carnahan.C74_carnahan_reference_partial",
    "Verif.Davis.Prod.C74_davis_products_reference",
    "Verif.Davis.Prod.C74_davis_products_reference_energy",
    "Verif.Davis.Reac.C74_davis_reactants_reference",
    "Verif.Grun.Grun.C74_gruneisen_reference_partial",
    "Verif.Grun.Grun.C74_gruneisen_dpde_violated",
    "Verif.Gases.Ideal.C74_ideal_reference",
    "Verif.EosMisc.Jwl.C74_jwl_reference_partial",
    "Verif.EosMisc.Jwl.C74_jwl_pressure_violated",
    "Verif.MG.Usup.C74_mgusup_reference",
    "Verif.MG.Usup.C74_mgusup_dvdt_violated",
    "Verif.EosMisc.Sap.C74_sap_reference_violated",
    "Verif.EosMisc.Electrons.C74_electrons_pressure_violated",
    "Verif.EosMisc.Electrons.C74_electrons_reference_partial",
    "Verif.MG.Power.C74_powermg_reference",
    "Verif.MG.Power.C74_powermg_dvdt_violated",
    "Verif.C74_electrons_expansion",
    "Verif.C74_expansion_formula",
    "Verif.C74_expansion_formula_iff",
    "Verif.C74_jwl_expansion_violated",
    "Verif.Gases.Stiff.C74_stiff_reference",
    "Verif.Gases.Noble.C74_noble_reference",
    "Verif.Gases.C74_dvdt_unset_violated",
    "Verif.VinetEos.Vinet.C74_vinet_reference"
   ],
   "note": "C74_carnahan_bmod_violated: C74 is violated: the reference bulk modulus of CarnahanStarling lacks a factor `gm1`; times `gm1` it is the direct query at the reference density and temperature. C74_carnahan_reference_partial: C74: the other reference values of CarnahanStarling are the direct queries, the pressure whenever the constructor's density is the density with pressure `P0` and temperature `T0`. C74_gruneisen_reference_partial: C74 (partial): of the Gruneisen reference state, pressure, energy, heat capacity and bulk modulus are the direct queries at the reported density and temperature. C74_gruneisen_dpde_violated: C74 is violated: the reported `dp/de` is the reference pressure divided by zero. Whatever that division produces, it is the same for two materials that differ only in their Gruneisen coefficient, whose true `dp/de` at the reference state are different: it cannot be right for both. C74_jwl_reference_partial: C74 (partial): the JWL reference state: energy, heat capacity, bulk modulus and `dp/de` are the direct queries at the reported density and temperature. C74_jwl_pressure_violated: C74 is violated for JWL: the reported pressure (atmospheric) is not the pressure at the reported density and temperature, for any nonnegative coefficients and positive heat capacity that make the latter exceed it; the error is the whole detonation-product pressure. C74_mgusup_dvdt_violated: C74 is violated: the reported `dV/dT` is negative whenever `T0`, `G0` and `rho0` are positive, although the material expands on heating: with a positive isothermal bulk modulus its thermal expansion coefficient is positive. C74_sap_reference_violated: C74 is violated: the reference state reports zero pressure and bulk modulus at zero energy, where the EOS has pressure `a0` and (for unit factor) bulk modulus `a1`. C74_electrons_pressure_violated: C74 is violated: the reported reference pressure (one atmosphere) does not depend on the ionisation while the pressure at the reported density and temperature does, so it is wrong for all but one ionisation. C74_electrons_reference_partial: C74 (partial): the remaining reference values are the direct queries. C74_powermg_dvdt_violated: C74 is violated: the reported `dV/dT` is negative whenever `T0`, `G0` and `rho0` are positive, although the material expands on heating whenever its isothermal bulk modulus `K0 - G0^2 Cv rho0 T0` is positive. C74_jwl_expansion_violated: C74 is violated for JWL: already for pure ideal-gas products (`A = B = 0`) the `dV/dT` reported is the thermal expansion only for the accidental density `rho0 = w + 1`. C74_dvdt_unset_violated: C74 is violated by StiffGas and NobleAbel: the reference `dv/dT` is never written, the caller gets back whatever was in the variable."
  },
  {
   "property": "C75",
   "status": "proved",
   "theorems": [
    "Verif.Gases.C75_ideal_limits",
    "Verif.Gases.C75_ideal_limits_entropy"
   ],
   "note": ""
  },
  {
   "property": "C76",
   "status": "partial",
   "theorems": [
    "Verif.Grun.C76_cubic_root_simple",
    "Verif.Grun.C76_cubic_root",
    "Verif.Grun.C76_cubic_no_singularity_partial",
    "Verif.Grun.C76_cubic_usual",
    "Verif.Grun.C76_double_zero_violated",
    "Verif.Grun.C76_eta_root_quadratic",
    "Verif.Grun.C76_no_singularity_below_maximum",
    "Verif.Grun.C76_cubic_bracket"
   ],
   "note": "C76_cubic_no_singularity_partial: C76 (partial): consequently the denominator is positive at every density from the reference density up to `0.99` times the automatic maximum (at every density at all when none is set), for every cubic fit for which the constructor does not abort and whose denominator falls through its first zero `x` steeply enough for the root finder's tolerance to be covered by the safety factor: `max(100 ε, 20 ε / m) ≤ (1 - x) / 100`. Not covered: the fits for which it is not (a nearly double zero, for which the claim is false: `C76_double_zero_violated`; or one within `10^4 ε` of compression one). C76_double_zero_violated: C76 (violated): the exception in `C76_cubic_no_singularity_partial` is real. With the code's own tolerance there is a cubic fit, singular at compression `0.3` and with a local maximum of the denominator just below zero at `0.701`, for which the constructor reports success, sets a maximum density above compression `0.35`, and so accepts densities well below `0.99` times that maximum at which the reference pressure is singular or its denominator negative."
  },
  {
   "property": "C77",
   "status": "proved",
   "theorems": [
    "Verif.Helm.C77_radiation",
    "Verif.Helm.C77_ions",
    "Verif.Helm.C77_electrons",
    "Verif.Helm.C77_electron_pressure"
   ],
   "note": ""
  },
  {
   "property": "C78",
   "status": "partial",
   "theorems": [
    "Verif.Helm.C78_ion_entropy_density_composition_partial",
    "Verif.Helm.C78_ion_entropy_T_iff",
    "Verif.Helm.C78_ion_entropy_T_violated",
    "Verif.Helm.C78_ionized_entropy_violated"
   ],
   "note": "C78_ion_entropy_density_composition_partial: C78 (what holds): the density and composition derivatives reported for the ion entropy are its derivatives. C78_ion_entropy_T_violated: C78 violated: with the constants of the code (`LSWOT15 = 46.68…`, which the comment describes as an additive constant), the entropy reported by the ion component violates `T dS/dT = cv` at every state. C78_ionized_entropy_violated: C78 does not hold for the fully ionised ideal gas either: the density derivative reported for its entropy is the derivative of the entropy exactly where the logarithm of the particle mass factor happens to equal the number of particles `rho N_A`; and the temperature derivative exactly when `LSWOT15` is `3/2`, which it is not."
  },
  {
   "property": "C79",
   "status": "partial",
   "theorems": [
    "Verif.Helm.C79_weak_branch_unreachable",
    "Verif.Helm.C79_gain_derivative_violated",
    "Verif.Helm.C79_plasma_parameter",
    "Verif.Helm.C79_fit_energy_pressure",
    "Verif.Helm.C79_fit_entropy_iff",
    "Verif.Helm.C79_fit_entropy_violated",
    "Verif.Helm.C79_coulomb_heat_capacity_violated",
    "Verif.Helm.C79_gain_chain_rule",
    "Verif.Helm.C79_gain_derivatives_swapped",
    "Verif.Helm.C79_correction_derivatives_partial"
   ],
   "note": "C79_gain_derivative_violated: C79 violated: the temperature derivative of the gain used in the reported heat capacity of the Coulomb correction is not the derivative of the gain: at `T = 10^4.5` the gain is stationary in temperature, but the reported derivative is not zero at any density below 0.1 g/cc. C79_fit_entropy_violated: C79 violated: with the constants of the code, at every density and composition there is a temperature (the one at which the plasma parameter is 16) where the density derivative reported for the Coulomb entropy is not its derivative; and the branch evaluated there is the one the code takes. C79_coulomb_heat_capacity_violated: C79 violated: the heat capacity reported by the Coulomb correction is not the temperature derivative of the energy it reports: at `T = 10^4.5`, any density below 0.1 g/cc, any mean atomic mass, and the charge that makes the plasma parameter one, they differ. C79_correction_derivatives_partial: C79 (what holds of the whole correction): the composition derivatives reported for the Coulomb energy and pressure are derivatives, at every state; and the reported density and temperature derivatives are off by exactly the fit times the error in the gain's derivative."
  },
  {
   "property": "C80",
   "status": "partial",
   "theorems": [
    "Verif.Helm.C80_inversion_returns_cached_value_violated",
    "Verif.Helm.C80_roundtrip_is_vacuous_violated",
    "Verif.Helm.C80_without_cache_partial",
    "Verif.Helm.C80_regula_falsi",
    "Verif.Helm.C80_coulomb_flag_only",
    "Verif.Helm.C80_ideal"
   ],
   "note": "C80_inversion_returns_cached_value_violated: C80 violated: when the caller's lambda has a log-temperature entry, the temperature returned by `TemperatureFromDensityInternalEnergy` is the entry that was already there: the result of the root find is overwritten, and the answer does not depend on the energy. C80_roundtrip_is_vacuous_violated: C80: this is why the round trip of the unit test passes: after the energy query at `T` has stored `T` in the lambda, the inversion of any energy whatsoever returns `T`. C80_without_cache_partial: C80 (what holds): with a lambda that has no log-temperature entry, when Newton-Raphson converges the returned temperature is inside the table and its energy matches the requested one to 1e-10."
  },
  {
   "property": "C81",
   "status": "partial",
   "theorems": [
    "Verif.Helm.C81_only_e_agrees",
    "Verif.Helm.C81_bulk_modulus_and_gruneisen",
    "Verif.Helm.C81_heat_capacity_partial",
    "Verif.Helm.C81_first_law_partial",
    "Verif.Helm.C81_coulomb_virial",
    "Verif.Helm.C81_radiation_adds",
    "Verif.Helm.C81_options_partial",
    "Verif.Helm.C81_heat_capacity_violated"
   ],
   "note": "C81_heat_capacity_partial: C81: without Coulomb corrections, with degenerate electrons, radiation on or off: the reported energy derivatives are the derivatives of `InternalEnergyFromDensityTemperature` in density, temperature and composition; in particular the reported heat capacity is `de/dT` at constant density. C81_first_law_partial: C81: in the same configuration the energy and pressure satisfy the first law `de/drho|_T = (P - T dP/dT)/rho^2`, with `dP/dT` the true temperature derivative of the pressure. C81_options_partial: C81: for every combination of the option switches other than Coulomb corrections on top of degenerate electrons: the reported heat capacity is the temperature derivative of the reported energy, and `de/drho|_T = (P - T dP/dT)/rho^2`. (With degenerate electrons the state must be inside a table cell.) C81_heat_capacity_violated: C81 is violated with Coulomb corrections on top of degenerate electrons: for every table and cell, at `T = 10^4.5` and density below `0.1` with the mean charge that makes the plasma parameter one, the reported energy has a temperature derivative and the reported heat capacity is not it."
  },
  {
   "property": "C82",
   "status": "proved",
   "theorems": [
    "Verif.RhoT.C82_rhot_rhoPmin",
    "Verif.Spiner.C82_pmin_is_lower_bound",
    "Verif.Spiner.C82_density_of_minimum",
    "Verif.Spiner.C82_vapour_dome"
   ],
   "note": ""
  },
  {
   "property": "C83",
   "status": "proved",
   "theorems": [
    "Verif.PTE.C83_rhoT",
    "Verif.PTE.C83_fixedT",
    "Verif.PTE.C83_fixedP",
    "Verif.PTE.C83_rhoU",
    "Verif.PTE.C83_pt"
   ],
   "note": ""
  },
  {
   "property": "C84",
   "status": "proved",
   "theorems": [
    "Verif.Mods.C84_scaled",
    "Verif.Mods.C84_unitSystem",
    "Verif.Mods.C84_passed_on"
   ],
   "note": ""
  },
  {
   "property": "C85",
   "status": "partial",
   "theorems": [
    "Verif.RhoT.C85_round_trip",
    "Verif.RhoT.C85_succeeds",
    "Verif.RhoT.C85_rising",
    "Verif.RhoT.C85_top",
    "Verif.RhoT.C85_top_reverse",
    "Verif.RhoT.C85_cold",
    "Verif.RhoT.C85_cold_back",
    "Verif.RhoT.C85_negative_log_temperature_violated",
    "Verif.RhoT.C85_table_partial",
    "Verif.RhoT.C85_below_lowest_isotherm_violated"
   ],
   "note": "C85_negative_log_temperature_violated: C85 fails on the cold curve when the lowest log temperature is negative: `(1 + SOFT_THRESH) * lTMin` is then below `lTMin`, so the state reported for the cold curve counts as on the table when it is looked up by temperature, and the pressure at that temperature is not the one reported for the energy. C85_table_partial: C85 (missing: convergence when the root finder stops on its residuals, and energies that no temperature of the table has, see the next theorem): on the table, for an isochore that is continuous in the log temperature and takes the energy between its ends, a successful inversion returns a temperature of the table within the threshold of one with exactly that energy, whatever the lambda cache holds; if moreover the isochore is Lipschitz with constant `L`, its energy there is within `L` thresholds of the one asked for. C85_below_lowest_isotherm_violated: C85, C91 fail for an energy between the cold curve and the lowest isotherm: the state counts as on the table, the inversion fails, and the temperature returned is the one cached in `lambda`, so it depends on the history of calls."
  },
  {
   "property": "C86",
   "status": "partial",
   "theorems": [
    "Verif.RhoT.C86_round_trip",
    "Verif.RhoT.C86_rising",
    "Verif.RhoT.C86_table_partial",
    "Verif.RhoT.C86_above_table_violated",
    "Verif.RhoT.C86_unreachable_pressure_violated"
   ],
   "note": "C86_table_partial: C86 (missing: as for C85, and temperatures above the table, see below): on the table, for an isotherm continuous in the log density that takes the pressure between its ends, a successful inversion returns a density of the table whose log is within the threshold of one with exactly that pressure; below the table the same holds on the cold curve. C86_above_table_violated: C86 fails above the table: the function inverted there multiplies the logs of temperature and density instead of the temperature and the density. For an ideal gas with `P = rho T` the density found for `P = 4`, `T = 100` is 100, with success reported, and the pressure there is 10000. C86_unreachable_pressure_violated: C86, C91: a pressure the isotherm does not reach gives back the density cached in `lambda`, without any sign of failure in the result."
  },
  {
   "property": "C87",
   "status": "partial",
   "theorems": [
    "Verif.RhoT.C87_by_temperature",
    "Verif.RhoT.C87_by_energy",
    "Verif.RhoT.C87_by_energy_top",
    "Verif.RhoT.C87_by_pressure_temperature",
    "Verif.RhoT.C87_cold_violated",
    "Verif.RhoT.C87_pressure_above_table_violated"
   ],
   "note": "C87_cold_violated: C87 fails on the cold curve when the lowest log temperature is negative: `FillEos` from density and energy gives another pressure than the direct query. C87_pressure_above_table_violated: C87 fails for density and pressure above the table: the temperature returned is the table's maximum, and the pressure there is not the one given."
  },
  {
   "property": "C88",
   "status": "partial",
   "theorems": [
    "Verif.RhoSie.C88_rhosie_fixed_table",
    "Verif.RhoSie.C88_rhosie_heat_capacity_violated",
    "Verif.RhoT.C88_floor",
    "Verif.RhoT.C88_bulk_by_energy_violated",
    "Verif.RhoT.C88_fixed_table",
    "Verif.RhoT.C88_gruneisen"
   ],
   "note": "C88_rhosie_heat_capacity_violated: C88 fails for the heat capacity of this EOS: there is no floor. C88_bulk_by_energy_violated: C88 fails for the bulk modulus by energy, which has no floor: above the table at zero density it is zero, while the same state by temperature gives `robust::EPS`."
  },
  {
   "property": "C89",
   "status": "partial",
   "theorems": [
    "Verif.RhoT.C89_on_table",
    "Verif.RhoT.C89_no_crossing",
    "Verif.RhoT.C89_single_crossing_violated"
   ],
   "note": "C89_single_crossing_violated: C89 fails in the ordinary case: when the isochore crosses the cold curve exactly once, upwards (the energy increases with temperature and the cold energy lies on the grid), the crossing is ignored and the lowest temperature is returned, wherever the crossing is."
  },
  {
   "property": "C90",
   "status": "partial",
   "theorems": [
    "Verif.RhoT.C90_energy_continues",
    "Verif.RhoT.C90_pressure_continues_iff",
    "Verif.RhoT.C90_pressure_jump_violated"
   ],
   "note": "C90_pressure_jump_violated: C90 fails in general: a material whose top isotherm has an energy offset (here `e = T - 1`, `P = rho T`) has a pressure jump at the top of the table."
  },
  {
   "property": "C91",
   "status": "proved",
   "theorems": [
    "Verif.RhoT.C91_cached_temperature",
    "Verif.RhoT.C91_cached_density",
    "Verif.RhoT.C91_on_table",
    "Verif.RhoT.C91_off_table",
    "Verif.RhoT.C91_on_table_converged"
   ],
   "note": ""
  },
  {
   "property": "C92",
   "status": "partial",
   "theorems": [
    "Verif.RhoSie.C92_by_energy",
    "Verif.RhoSie.C92_by_temperature",
    "Verif.RhoSie.C92_by_pressure_temperature",
    "Verif.RhoSie.C92_pressure_alone_violated"
   ],
   "note": "C92_pressure_alone_violated: C92 fails when neither temperature nor energy is asked for: with density and temperature (or energy) given and the pressure asked for, the pressure passed in comes back. The same holds for heat capacity and bulk modulus asked for together with the density."
  },
  {
   "property": "C93",
   "status": "partial",
   "theorems": [
    "Verif.RhoSie.C93_transformed",
    "Verif.RhoSie.C93_mass_fractions",
    "Verif.RhoSie.C93_not_transformed_violated",
    "Verif.RhoSie.C93_shifted_violated"
   ],
   "note": "C93_not_transformed_violated: C93 fails for the Grüneisen parameter by energy and the mass fractions by energy: both read the table at the untransformed energy, whatever the transform. C93_shifted_violated: … so for a shift of the energy by 1 they are not the values at the temperature that the EOS reports."
  },
  {
   "property": "C94",
   "status": "partial",
   "theorems": [
    "Verif.RhoSie.C94_round_trip",
    "Verif.RhoSie.C94_rising",
    "Verif.RhoSie.C94_above",
    "Verif.RhoSie.C94_above_violated",
    "Verif.RhoSie.C94_table_partial",
    "Verif.RhoSie.C94_unreachable_violated"
   ],
   "note": "C94_above_violated: C94 fails there all the same: the slope used is that at constant energy (`C96_stored`), not the isotherm's, so the pressure at the density returned is not the one asked for. C94_table_partial: C94 (missing: convergence when the root finder stops on its residuals): otherwise, for an isotherm that is continuous in the log density and takes the pressure between its ends, a successful inversion returns a density of the table whose log is within `robust::EPS` of one with exactly that pressure, whatever the lambda. C94_unreachable_violated: C94 fails for a pressure the isotherm does not reach (below its minimum, or above its maximum where the stored slope is not positive): the density cached in `lambda` comes back."
  },
  {
   "property": "C95",
   "status": "partial",
   "theorems": [
    "Verif.RhoSie.C95_reference",
    "Verif.RhoSie.C95_reference_on_table",
    "Verif.RhoSie.C95_dvdt_iff",
    "Verif.RhoSie.C95_dvdt_violated",
    "Verif.RhoSie.C95_true_dvdt",
    "Verif.RhoSie.C95_dvdt_of_isothermal_slope"
   ],
   "note": "C95_dvdt_violated: C95 fails: for `P = rho T`, `e = T - rho` the reference state at density 1 and temperature 3 reports `dv/dT = 1/4`; along the isobar `v = T/P`, so it is `1/P = 1/3`."
  },
  {
   "property": "C96",
   "status": "proved",
   "theorems": [
    "Verif.RhoSie.C96_stored",
    "Verif.RhoSie.C96_reciprocity",
    "Verif.RhoSie.C96_cold_curve"
   ],
   "note": ""
  },
  {
   "property": "C97",
   "status": "proved",
   "theorems": [
    "Verif.SC.C97_round_trip",
    "Verif.SC.C97_energy_is_temperature",
    "Verif.SC.C97_clamped",
    "Verif.SC.C97_table_converged"
   ],
   "note": ""
  },
  {
   "property": "C98",
   "status": "partial",
   "theorems": [
    "Verif.SC.C98_nodes",
    "Verif.SC.C98_between_nodes_violated"
   ],
   "note": "C98_between_nodes_violated: C98, C97 fail between the densities of the table (exact logarithms): the cold curve is interpolated linearly in the energy, the energy itself in its logarithm, so `MinInternalEnergyFromDensity` is above energies that the EOS takes at temperatures inside the table, and asking for the temperature of such an energy does not give it back."
  },
  {
   "property": "C99",
   "status": "proved",
   "theorems": [
    "Verif.SC.C99_monotone",
    "Verif.SC.C99_median",
    "Verif.SC.C99_filter"
   ],
   "note": ""
  },
  {
   "property": "C100",
   "status": "proved",
   "theorems": [
    "Verif.SC.C100_floor",
    "Verif.SC.C100_isentropic"
   ],
   "note": ""
  },
  {
   "property": "C101",
   "status": "partial",
   "theorems": [
    "Verif.SC.C101_linear",
    "Verif.SC.C101_regrid",
    "Verif.SC.C101_file_points",
    "Verif.SC.C101_bounds",
    "Verif.SC.C101_chemical_potentials_violated",
    "Verif.SC.C101_chemical_potentials_partial"
   ],
   "note": "C101_chemical_potentials_violated: C101 fails for the five chemical potentials whenever the fast logarithm is not `log10` (the default build): there is a file, whose table is the logarithm of the density, for which the value returned at a density is the fast logarithm of it. C101_chemical_potentials_partial: C101 holds for the chemical potentials exactly where the two logarithms agree (for instance in a build with true logarithms): there every file's values are returned."
  },
  {
   "property": "C102",
   "status": "partial",
   "theorems": [
    "Verif.SC.C102_by_temperature",
    "Verif.SC.C102_by_energy_partial",
    "Verif.SC.C102_temperature_violated",
    "Verif.SC.C102_abort"
   ],
   "note": "C102_by_energy_partial: C102: with temperature an output, pressure, heat capacity and bulk modulus are the single queries at the given density and energy, and no input changes. C102_temperature_violated: C102 fails for the temperature itself: asked for, it is never written; the caller keeps what was in the variable."
  },
  {
   "property": "C103",
   "status": "partial",
   "theorems": [
    "Verif.SC.C103_reference",
    "Verif.SC.C103_temperature_violated",
    "Verif.SC.C103_dvdt_iff"
   ],
   "note": "C103_temperature_violated: C103 fails for the temperature: the class works in K, the reference temperature of 5 GK is entered in MeV, a factor `MeV2K` too small, so for every table that starts at 1 K or above the reference state is below the table."
  },
  {
   "property": "C104",
   "status": "proved",
   "theorems": [
    "Verif.SC.C104_save_load",
    "Verif.SC.C104_loaded_consistent",
    "Verif.SC.C104_rounds"
   ],
   "note": ""
  },
  {
   "property": "C105",
   "status": "partial",
   "theorems": [
    "Verif.SC.C105_round_trip",
    "Verif.SC.C105_rising",
    "Verif.SC.C105_unreachable_violated",
    "Verif.SC.C105_table_partial"
   ],
   "note": "C105_unreachable_violated: C105 fails when the isotherm does not take the pressure: the call returns normally, with the incoming density (if it is on the table) and the energy there. C105_table_partial: C105 (missing: convergence when the root finder stops on its residuals; unreachable pressures, see above): for a temperature and electron fraction at which the isotherm takes the pressure between the ends of the table, a successful inversion returns a density of the table whose logarithm is within the threshold of one with exactly this pressure, and the energy at the returned density and the given temperature."
  },
  {
   "property": "C106",
   "status": "proved",
   "theorems": [
    "Verif.Eospac.C106_queries",
    "Verif.Eospac.C106_operations",
    "Verif.Eospac.C106_history"
   ],
   "note": ""
  },
  {
   "property": "C107",
   "status": "partial",
   "theorems": [
    "Verif.Eospac.C107_alone",
    "Verif.Eospac.C107_interleaved_partial",
    "Verif.Eospac.C107_pressure_race_violated"
   ],
   "note": "C107_interleaved_partial: C107: any number of threads perform operations on the same object, their library calls interleaved in any order. If no other thread performs an operation that sets options on the table on which thread `i` sets options, then thread `i`, once scheduled often enough, has the answer it would have got alone; up to then it is not finished with any other answer. (Every operation but the pressure of density and energy and the minimum energy sets no options.) C107_pressure_race_violated: C107 is violated: two threads ask for the pressure at the same density and energy; one thread's options are cleared by the other before its lookup, and it returns `10^20` instead of `10^10`."
  },
  {
   "property": "C108",
   "status": "partial",
   "theorems": [
    "Verif.Eospac.C108_status_partial",
    "Verif.Eospac.C108_success_reported",
    "Verif.Eospac.C108_status_violated"
   ],
   "note": "C108_status_partial: C108: without options and without debug output, `eosSafeInterpolate` reports success exactly when the lookup succeeded. C108_status_violated: C108 is violated: with any option set, or with debug output, a failed lookup is reported as a success whenever the calls that follow it succeed."
  },
  {
   "property": "C109",
   "status": "partial",
   "theorems": [
    "Verif.Eospac.C109_from_density_temperature_partial",
    "Verif.Eospac.C109_from_pressure_temperature_partial",
    "Verif.Eospac.C109_from_density_pressure_partial",
    "Verif.Eospac.C109_from_density_energy_partial",
    "Verif.Eospac.C109_stale_temperature_violated",
    "Verif.Eospac.C109_accepts"
   ],
   "note": "C109_from_density_temperature_partial: C109: density and temperature given: `FillEos` stores exactly the requested quantities, each equal to the answer of the corresponding query, and leaves the others and the library alone. C109_from_pressure_temperature_partial: C109: pressure and temperature given, density wanted: every requested quantity is the one at the density of that pressure and temperature. C109_from_density_pressure_partial: C109: density and pressure given, temperature and energy wanted: every requested quantity is the one at the temperature of that density and pressure. C109_from_density_energy_partial: C109: density and energy given, temperature wanted: the temperature is right; pressure, heat capacity and bulk modulus are those at the temperature *passed in*. C109_stale_temperature_violated: C109 is violated: density and energy given, temperature and pressure wanted (the combination a hydro code asks for): the pressure returned is the one at the temperature passed in, here `0` instead of `5·10^10`."
  },
  {
   "property": "C110",
   "status": "partial",
   "theorems": [
    "Verif.Eospac.C110_split_partial",
    "Verif.Eospac.C110_split_violated"
   ],
   "note": "C110_split_partial: C110: with the default selection every table is a table of the total; with a split selection the tables of pressure, temperature, energy and entropy are those of the part. C110_split_violated: C110 is violated: whatever the selection, the minimum energy is the cold curve of the total and the density of pressure and temperature (array `FillEos`; the scalar calls refuse) is the density of the total. So with electrons selected the \"minimum energy\" can exceed the energy at every temperature up to some positive one, although it is a true minimum for the total."
  },
  {
   "property": "C111",
   "status": "proved",
   "theorems": [
    "Verif.Eospac.C111_answers",
    "Verif.Eospac.C111_gas_example"
   ],
   "note": ""
  },
  {
   "property": "C112",
   "status": "proved",
   "theorems": [
    "Verif.Eospac.C112_ptd"
   ],
   "note": ""
  },
  {
   "property": "C113",
   "status": "partial",
   "theorems": [
    "Verif.Eospac.C113_reference_partial",
    "Verif.Eospac.C113_reference_bulk_violated"
   ],
   "note": "C113_reference_partial: C113: the state reported by `ValuesAtReferenceState` is at the material's normal density and 293 K, and (with exact divisions, for a positive density and positive `∂e/∂T`) pressure, energy, heat capacity, bulk modulus and `dp/de` are those of the queries there, and `dv/dT` is `(∂P/∂T)/(ρ² ∂P/∂ρ)`. C113_reference_bulk_violated: C113 is violated where `∂e/∂T ≤ 0` (a table without thermal part): the reference bulk modulus is not the answer of the bulk modulus query at the reference state. Here `P = T ρ²`, `e = -ρT`, density 1."
  },
  {
   "property": "C114",
   "status": "proved",
   "theorems": [
    "Verif.Eospac.C114_arrays",
    "Verif.Eospac.C114_minE"
   ],
   "note": ""
  },
  {
   "property": "C115",
   "status": "partial",
   "theorems": [
    "Verif.Eospac.C115_array_fill_partial",
    "Verif.Eospac.C115_array_fill_accepts",
    "Verif.Eospac.C115_inputs_kept_partial",
    "Verif.Eospac.C115_inputs_overwritten_violated"
   ],
   "note": "C115_array_fill_partial: C115: what the array `FillEos` leaves in the six arrays: requested quantities are right, at the density and temperature determined by the inputs; but the energy array is overwritten with the energy at that state whenever heat capacity or bulk modulus is requested, and the pressure array whenever the bulk modulus is. The library is left as found; nothing but the six arrays and four scratch arrays is written. C115_inputs_kept_partial: C115: so arrays that were not requested are left alone if neither heat capacity nor bulk modulus is requested; if they are, the energy array is left alone where the energy is that of the state, and the pressure array where the pressure is. C115_inputs_overwritten_violated: C115 is violated: asking the array `FillEos` for the heat capacity at given density and temperature overwrites the caller's energies, and asking for the bulk modulus also the pressures (the scalar call leaves both alone). Here energy 7 becomes `5·10^10`, pressure 9 becomes `5·10^10`."
  },
  {
   "property": "C116",
   "status": "partial",
   "theorems": [
    "Verif.S2S.C116_parameter_file",
    "Verif.S2S.C116_truth_value",
    "Verif.S2S.C116_lines",
    "Verif.S2S.C116_decks",
    "Verif.S2S.C116_matid_required",
    "Verif.S2S.C116_header_closed",
    "Verif.S2S.C116_no_equals_violated",
    "Verif.S2S.C116_comment_in_key_violated",
    "Verif.S2S.C116_matid_trailing_violated"
   ],
   "note": "C116_no_equals_violated: **C116 is violated** for lines that are not well formed: a line without `=` (and which is no comment and no header) is not rejected; it adds a parameter named like the whole line, and the parameter the user meant keeps its default. C116_comment_in_key_violated: **C116 is violated**: a comment after a key hides nothing; with a `=` in the comment, the text of the comment becomes part of the key. C116_matid_trailing_violated: **C116 is violated** for the material number: what follows the digits is ignored."
  },
  {
   "property": "C117",
   "status": "partial",
   "theorems": [
    "Verif.S2S.C117_command_line_partial",
    "Verif.S2S.C117_no_file",
    "Verif.S2S.C117_help",
    "Verif.S2S.C117_repeated_flag_violated",
    "Verif.S2S.C117_save_last_violated",
    "Verif.S2S.C117_unknown_option_violated"
   ],
   "note": "C117_command_line_partial: **C117.** A command line with at least one file, in which the verbosity is only ever raised by a later flag, is taken as it is meant, whatever the order of its arguments: the files in order, the last `-s`, `-p`, the verbosity. C117_repeated_flag_violated: **C117 is violated**: asking twice for the same verbosity, or for less than before, makes the flag the name of an input file. For instance `-v -v deck` reads the files `-v` and `deck`. C117_save_last_violated: **C117 is violated**: `-s` as the last argument reads a null pointer. C117_unknown_option_violated: **C117 is violated**: a mistyped option is the name of an input file."
  },
  {
   "property": "C118",
   "status": "partial",
   "theorems": [
    "Verif.S2S.C118_name_asked",
    "Verif.S2S.C118_each_once",
    "Verif.S2S.C118_first_wins",
    "Verif.S2S.C118_names",
    "Verif.S2S.C118_names_distinct_partial",
    "Verif.S2S.C118_name_collision_violated"
   ],
   "note": "C118_names_distinct_partial: **C118, partly.** If no name asked for is another one followed by `_` and a number, then no two materials are written under the same name. C118_name_collision_violated: **C118 is violated**: materials that ask for the names `a`, `a` and `a_2` are written as `a`, `a_2` and `a_2`."
  },
  {
   "property": "C119",
   "status": "partial",
   "theorems": [
    "Verif.S2S.C119_density_range",
    "Verif.S2S.C119_temperature_range",
    "Verif.S2S.C119_energy_range",
    "Verif.S2S.C119_density_centre",
    "Verif.S2S.C119_fine_region_partial",
    "Verif.S2S.C119_fine_region_truncated_violated",
    "Verif.S2S.C119_fine_region_ignored_violated",
    "Verif.S2S.C119_pieces_adjoin",
    "Verif.S2S.C119_temperature_pieces_adjoin",
    "Verif.S2S.C119_energy_split_violated",
    "Verif.S2S.C119_inside_data",
    "Verif.S2S.C119_half_region",
    "Verif.S2S.C119_resolution",
    "Verif.S2S.C119_temperature_resolution",
    "Verif.S2S.C119_temperature_split",
    "Verif.S2S.C119_fine_region_placed"
   ],
   "note": "C119_fine_region_partial: **C119, partly.** The ends of the finely resolved density region given by the user are used, if they are whole numbers. C119_fine_region_truncated_violated: **C119 is violated**: fractions of the ends of the finely resolved region are cut off. For instance `2.5` and `20.5` are used as 2 and 20. C119_fine_region_ignored_violated: **C119 is violated**: a finely resolved region that begins below 1 g/cc is ignored, whatever its upper end; and `1e-3` is taken as 1. C119_energy_split_violated: **C119 is violated** for the energy grid: the energies at the anchor and at the temperature the user chose for the split are in the units of the data library (a factor `1e10` smaller), the range is in cgs. When these numbers do not exceed the lower end of the range (air: about 7 against 8.4e8) the grid does not depend on the split temperature at all."
  },
  {
   "property": "C120",
   "status": "partial",
   "theorems": [
    "Verif.Props.Python.C120_elementwise_partial",
    "Verif.Props.Python.C120_any_order",
    "Verif.Props.Python.C120_short_output_violated",
    "Verif.Props.Python.C120_short_input_violated",
    "Verif.Props.Python.C120_lambda_order_violated",
    "Verif.Props.Python.C120_dtype_violated",
    "Verif.Props.Python.C120_dtype_double",
    "Verif.Props.Python.C120_scalar_partial",
    "Verif.Props.Python.C120_scalar_stride_violated",
    "Verif.Props.Python.C120_scratch",
    "Verif.Props.Python.C120_scratch_stride_violated",
    "Verif.Props.Python.C120_scratch_single_violated"
   ],
   "note": "C120_elementwise_partial: C120 (partial): a Python array query is the scalar query at every point and touches nothing else. The arrays may have any strides (slices, reversed, broadcast inputs); the output may be one of the inputs or overlap them as long as what a point writes is not used by a later point. Missing: it needs the other arrays to be at least as long as the first, and rows of lambdas to be contiguous (or at most one value per row); see the `_violated` theorems. C120_short_output_violated: C120 is violated when the output array is shorter than the first input: an address outside all arrays is overwritten (here one `Real` after the output array). C120_short_input_violated: C120 is violated when the second input is shorter than the first: the answers depend on memory outside all the arrays. C120_lambda_order_violated: C120 is violated for lambdas whose rows are not contiguous, such as `numpy.asfortranarray` or a transposed array: point 0 gets value 0 of point 1 as its second lambda value. C120_dtype_violated: C120 is violated for an output array of another element type (say `float32`): the call fills a converted copy and the caller's array keeps its old contents, whatever the query is. No lambdas; the copy is new memory. C120_scalar_partial: C120 (partial): the scalar query with a contiguous lambda array reads exactly the values of that array and leaves the query's values in it; nothing else changes. Missing: strided lambda arrays. C120_scalar_stride_violated: C120 is violated for a strided one-dimensional lambda, such as a column of a two-dimensional array. C120_scratch_stride_violated: C120 is violated with scratch memory in a release build: strided arrays are taken as if they were packed. Here the first input is every second element of an array; the second answer is that of the skipped element. C120_scratch_single_violated: C120 is violated with scratch memory in a debug build: an array of one element that was cut out of a larger one is refused for its stride, although one element is always packed."
  },
  {
   "property": "C121",
   "status": "partial",
   "theorems": [
    "Verif.Props.Python.C121_explicit_output",
    "Verif.Props.Python.C121_auto_output_violated",
    "Verif.Props.Python.C121_inputs_lost_violated",
    "Verif.Props.Python.C121_arrays_partial",
    "Verif.Props.Python.C121_scratch_stride_violated"
   ],
   "note": "C121_auto_output_violated: C121 is violated without `output`, for every EOS that honours its flags: the keywords that are passed are flagged as outputs instead of the others, so a quantity that was not passed is never computed: it comes back as NaN. C121_inputs_lost_violated: ... and the quantities that were passed do not survive either: for an ideal gas and `FillEos(rho=.., sie=..)` the result is the same whatever density and energy were passed (they are recomputed from the NaN pressure and temperature). C121_arrays_partial: C121: `FillEos` on arrays is the scalar `FillEos` at every point, with the six numbers of that point as its arguments and results, and touches nothing else; for all strides, in any order of the points. (As for `C120_elementwise_partial` the other arrays must be as long as the first and rows of lambdas contiguous, and no two values may share memory.) C121_scratch_stride_violated: C121 is violated with scratch memory (EOSPAC), in every build: `FillEos` hands strided arrays over as if they were packed, and nothing checks it. Here the first array is every second element of a larger one, and the fill copies density to pressure."
  },
  {
   "property": "C122",
   "status": "partial",
   "theorems": [
    "Verif.Props.Fortran.C122_query_partial",
    "Verif.Props.Fortran.C122_query_lambda_partial",
    "Verif.Props.Fortran.C122_section_violated",
    "Verif.Props.Fortran.C122_materials",
    "Verif.Props.Fortran.C122_materials_in_range",
    "Verif.Props.Fortran.C122_modifiers",
    "Verif.Props.Fortran.C122_carnahan_violated",
    "Verif.Props.Fortran.C122_split",
    "Verif.Props.Fortran.C122_eospac_split_violated",
    "Verif.Props.Fortran.C122_fractions_partial",
    "Verif.Props.Fortran.C122_kokkos_once",
    "Verif.Props.Fortran.C122_kokkos_c",
    "Verif.Props.Fortran.C122_kokkos_violated"
   ],
   "note": "C122_query_partial: C122 (partial): a Fortran array query on whole arrays of the same shape with `len` their number of elements, without lambdas, stores the scalar answer of element `(i, j, k)` in element `(i, j, k)`, for all of them, and changes no other memory. Missing: array sections (violated below) and lambdas (next theorem). C122_query_lambda_partial: C122 (partial): with stride `nl` and a whole lambda array whose first dimension is the `nl` values of a point, point `p` (in column-major order) uses values `nl*p ..` of it: the answers are the scalar answers and the lambda values are those the query leaves. Missing: sections. C122_section_violated: C122 is violated for array sections (which the assumed-shape dummy arguments accept): of `out(1:3:2,1:1,1:1)` the second element is not computed and an element outside the section is overwritten. C122_carnahan_violated: C122 is violated by the initialiser of CarnahanStarling: it hands the caller's arrays to C, which overwrites the P-alpha parameters by ramp parameters; the same call repeated stores another EOS. C122_eospac_split_violated: C122 is violated by the EOSPAC initialiser: when the optional `split` is absent, what reaches C is undefined: any value is possible. C122_fractions_partial: C122 (partial): the mixed-cell call finds the entry of cell `i`, material `j` of a whole array exactly when the cell dimension passed is the first extent of that array (or there is one material): the arrays of mass, volume and energy fractions must have `cell_dim` rows, not `ncell`. Missing: sections. C122_kokkos_violated: C122 is violated in Fortran: `finalize_sg_eos_f` shuts down a Kokkos that the host program started, and a second round (or a second set of materials) then fails."
  },
  {
   "property": "C123",
   "status": "partial",
   "theorems": [
    "Verif.Helm.C123_reads",
    "Verif.Helm.C123_rejects",
    "Verif.Helm.C123_grid",
    "Verif.Helm.C123_cell",
    "Verif.Helm.C123_nodes",
    "Verif.Helm.C123_shape_violated"
   ],
   "note": "C123_shape_violated: **C123 is violated** for tables of another shape: a complete table with 541 densities and 201 temperatures (such tables are published too) is accepted, and every number of it is put where it does not belong: what the EOS takes for the free energy at its second temperature and first density is the file's at the first temperature and 272nd density."
  },
  {
   "property": "C124",
   "status": "partial",
   "theorems": [
    "Verif.Sp5.C124_rhoT",
    "Verif.Sp5.C124_rhoSie",
    "Verif.Sp5.C124_no_subtables",
    "Verif.Sp5.C124_unknown_material",
    "Verif.Sp5.C124_log_type",
    "Verif.Sp5.C124_log_type_violated",
    "Verif.Sp5.C124_slash_violated",
    "Verif.Sp5.C124_named_after_number_violated",
    "Verif.Sp5.C124_no_log_type"
   ],
   "note": "C124_log_type_violated: C124 does not hold for the other ways to load: by name, or into the EOS tabulated on density and energy, a file made with another kind of logarithm is taken without complaint, although its grids are positions in the other logarithm. C124_slash_violated: C124 does not hold for names with a slash: a material so named is written, but cannot be loaded by its name. C124_named_after_number_violated: C124 does not hold if a material is named after the number of a later one: the later material is not written. Its attributes replace those of the first, and loading either number gives the first material's tables with the second material's offsets, normal density and composition."
  },
  {
   "property": "C125",
   "status": "partial",
   "theorems": [
    "Verif.EospacLoad.C125_options",
    "Verif.EospacLoad.C125_create_fails",
    "Verif.EospacLoad.C125_refused_option_violated",
    "Verif.EospacLoad.C125_parts_not_excluded_violated",
    "Verif.EospacLoad.C125_exists",
    "Verif.EospacLoad.C125_released",
    "Verif.EospacLoad.C125_comments_leak_violated",
    "Verif.EospacLoad.C125_cold_curves_leak_violated",
    "Verif.EospacLoad.C125_ctor_partial",
    "Verif.EospacLoad.C125_ctor_unloaded_violated",
    "Verif.EospacLoad.C125_metadata_cgs",
    "Verif.EospacLoad.C125_name_partial",
    "Verif.EospacLoad.C125_name_one_line",
    "Verif.EospacLoad.C125_name_found",
    "Verif.EospacLoad.C125_name_violated",
    "Verif.EospacLoad.C125_mass_fraction_result",
    "Verif.EospacLoad.C125_no_name"
   ],
   "note": "C125_refused_option_violated: Violation: an option the library refuses is not reported: `eosSafeLoad` returns the success code although the option asked for was refused. C125_parts_not_excluded_violated: Violation: the exclusions are for the tables of the total only. For an electron or ion part, inversion at setup is also set on the pressure, energy and entropy tables on (density, temperature), and monotonicity and smoothing on the energy and entropy tables. C125_comments_leak_violated: Violation: if the comment table can be created but not loaded, `eosGetMetadata` never releases it. C125_cold_curves_leak_violated: Violation: the cold curves never release their two tables: after n of them 2n tables are left in the library. C125_ctor_partial: C125: a constructed object has all tables loaded, up to entropy; and says so about entropy exactly when the library has no complaint about that table — provided the library created all tables. C125_ctor_unloaded_violated: Violation: if the library reports the missing entropy table when tables are created (not when they are loaded), the constructor goes on with an object none of whose tables was ever loaded, although it looks like one that merely lacks the entropy. C125_name_partial: C125: in comments of the usual form, \"101: material\", any character, a blank, the name, white space `bl ++ [w]` with no line end in `bl`, \"(z\" — the first such label, with no other parenthesis on the rest — the name found is the name followed by `bl`. If `w` is a line end, more white space `ws` may follow it. C125_name_violated: Violation: the name keeps blanks, and text up to the last \"(z\" of the line."
  },
  {
   "property": "C126",
   "status": "partial",
   "theorems": [
    "Verif.Var.C126_modify",
    "Verif.Var.C126_is_modifiable",
    "Verif.Var.C126_unmodify",
    "Verif.Var.C126_unmodify_once",
    "Verif.Var.C126_default_closed",
    "Verif.Var.C126_default_sequences",
    "Verif.Var.C126_names_distinct",
    "Verif.Var.C126_python_names_distinct",
    "Verif.Var.C126_library_names",
    "Verif.Var.C126_python_classes_violated"
   ],
   "note": "C126_python_classes_violated: C126 is violated for Python: the class of the (density, energy) table EOS is registered under another name than its `EosPyType`, from which the names of its modified classes are made; and `Vinet`, `MGUsup` and `PowerMG`, whose modified classes are registered for every build (they are in the list of all EOS, with or without the further EOS of the build options), are not registered themselves, so no object of those modified classes can be made."
  },
  {
   "property": "C127",
   "status": "partial",
   "theorems": [
    "Verif.Debug.C127_bad_value",
    "Verif.Debug.C127_non_positive_value",
    "Verif.Debug.C127_negative_value_violated",
    "Verif.Debug.C127_input",
    "Verif.Debug.C127_output",
    "Verif.Debug.C127_cold_state_violated"
   ],
   "note": "C127_negative_value_violated: C127 is violated: `negative_value` says that zero is negative; it is the same test as `non_positive_value`. C127_cold_state_violated: C127 is violated: a legitimate cold state stops a debug build, whatever the other values: temperature zero, or the zero heat capacity a table gives on its cold curve, or a zero Gruneisen parameter, requested per material."
  },
  {
   "property": "C128",
   "status": "partial",
   "theorems": [
    "Verif.Espz.C128_constructed",
    "Verif.Espz.C128_serialize_size",
    "Verif.Espz.C128_roundtrip",
    "Verif.Espz.C128_shared_needs_block",
    "Verif.Espz.C128_roundtrip_shared_root",
    "Verif.Espz.C128_roundtrip_shared_peer",
    "Verif.Espz.C128_bulk",
    "Verif.Espz.C128_bulk_shared_root",
    "Verif.Espz.C128_released",
    "Verif.Espz.C128_finalize_twice_violated",
    "Verif.Espz.C128_device_copy_violated"
   ],
   "note": "C128_finalize_twice_violated: Violated: unlike the Spiner tables (C56), finalising an EOSPAC object a second time destroys its eight handles again. C128_device_copy_violated: Violated: `GetOnDevice` shares the handles, so finalising both the object and its device copy, as for any other EOS, destroys each table twice."
  },
  {
   "property": "C129",
   "status": "partial",
   "theorems": [
    "Verif.Msg.C129_concatenate",
    "Verif.Msg.C129_debug_stops",
    "Verif.Msg.C129_message",
    "Verif.Msg.C129_library_names",
    "Verif.Msg.C129_name_of_44_violated"
   ],
   "note": "C129_name_of_44_violated: C129, violated: the code says names of 44 characters are allowed. With any such name the message of a missing minimum energy does not fit: a debug build stops with the wrong message, any other writes a null to the byte after the buffer."
  },
  {
   "property": "C130",
   "status": "proved",
   "theorems": [
    "Verif.PTE.C130_fixedT_state",
    "Verif.PTE.C130_fixedP_state",
    "Verif.PTE.C130_pt_state",
    "Verif.PTE.C130_rhoT_state",
    "Verif.PTE.C130_rhoU_state"
   ],
   "note": ""
  },
  {
   "property": "C131",
   "status": "partial",
   "theorems": [
    "Verif.PTE.C131_fixedT_equilibrium",
    "Verif.PTE.C131_fixedP_equilibrium",
    "Verif.PTE.C131_pt_equilibrium",
    "Verif.PTE.C131_rhoT_equilibrium",
    "Verif.PTE.C131_rhoU_equilibrium_partial",
    "Verif.PTE.C131_rhoU_violated",
    "Verif.PTE.C131_rhoT_ideal_violated"
   ],
   "note": "C131_rhoU_equilibrium_partial: C131, RhoU: under the same conditions, if the solver reports convergence (not through the slow-convergence exit) then neighbouring materials' returned pressures and temperatures agree within the tolerances (`Tn` is the starting temperature). Missing: that the volume fractions fill the volume and the energies sum to the total; the code does not test that and it fails (`C131_rhoU_violated`). C131_rhoU_violated: C131 is violated by RhoU, with any pressure guess `q` (for `q ≠ 0` the conditions of `C131_rhoU_equilibrium_partial` are met, see below): two ideal gases with energies shifted by 1000, equal densities and volume fractions, total specific energy -900, default parameters, any linear solver. The solver reports convergence without taking a step; the temperatures are the default 300, at which the energies sum to -700, not -900, and the EOS pressures differ by a factor of two. C131_rhoT_ideal_violated: C131 is violated by RhoT for equations of state that list pressure among their preferred inputs, such as `IdealGas`: two ideal gases with equal densities and volume fractions, `gamma - 1` of 1 and 2, and zero-initialised pressure and temperature arrays (default parameters, any linear solver). The solver reports convergence without taking a step and returns the zero pressures, while at the returned densities and temperature one EOS pressure is positive and the other twice as large."
  },
  {
   "property": "C132",
   "status": "partial",
   "theorems": [
    "Verif.PTE.C132_rhoT",
    "Verif.PTE.C132_pt",
    "Verif.PTE.C132_fixedT",
    "Verif.PTE.C132_fixedP_partial",
    "Verif.PTE.C132_rhoU",
    "Verif.PTE.C132_fixedP_violated"
   ],
   "note": "C132_fixedP_partial: C132, FixedP, as far as it holds: `Init` reads `utotal_scale * uscale`, which nothing has set. If the two objects happen to agree on that product, or the caller has turned the temperature iteration off, the outcome is the same. C132_fixedP_violated: Violation: `Init` of FixedP guesses the temperature with `utotal_scale * uscale`, members neither the constructor nor `Init` has set by then. Two calls that differ only in what those members happened to hold both report convergence, one with temperature 300, the other with more than 900."
  },
  {
   "property": "C133",
   "status": "proved",
   "theorems": [
    "Verif.C133_sum_error",
    "Verif.C133_sum_error_simple",
    "Verif.C133_nonneg_double",
    "Verif.C133_exact_on_grid",
    "Verif.C133_error_against_exact_model"
   ],
   "note": ""
  },
  {
   "property": "C134",
   "status": "partial",
   "theorems": [
    "Verif.C134_root_near_interval_partial",
    "Verif.C134_root_near_interval_double_partial",
    "Verif.C134_root_at_lower_end_violated",
    "Verif.C134_stop_rule",
    "Verif.C134_exact",
    "Verif.RootFind.C134_initial_bracket"
   ],
   "note": "C134_root_near_interval_partial: C134: if no operation loses more than a relative error `u ≤ 1/16` (no overflow or underflow), the computed residual changes sign over `[a,b]` and does not vanish exactly at `a` or at the guess, then `regula_falsi` stops within 1000 iterations and the root reported is in `[a,b]` up to `(1+5u)^1001 - 1` times the size of the interval's ends, whatever the function. C134_root_near_interval_double_partial: C134 for double precision: within `2^{-40}` of the size of the interval's ends. C134_root_at_lower_end_violated: C134 fails when the function takes the target value exactly at the lower end of the interval, as here at `a = 1.1` (its nearest double): in double precision, whatever the rule for ties, `regula_falsi` on `[1.1, 2]` with tolerances `2^{-30}` reports SUCCESS with the root `-3686895224239692.5`, because `(a * yb) / yb` is not `a`, the test `c == a` misses, and the two residuals no longer differ in sign. The function is non-decreasing and `a` is its exact root."
  },
  {
   "property": "C135",
   "status": "partial",
   "theorems": [
    "Verif.C135_ratio_nan_iff",
    "Verif.C135_ratio_le_one",
    "Verif.C135_ratio_is_rounded_quotient",
    "Verif.C135_ratio_finite_partial",
    "Verif.C135_ratio_finite_violated",
    "Verif.C135_make_positive",
    "Verif.C135_make_bounded_strict_violated"
   ],
   "note": "C135_ratio_finite_partial: C135: `ratio` of finite arguments is finite when `|a| ≤ 39`, whatever `b`; and for a larger `a` when `|a| ≤ |b| Ω`. C135_ratio_finite_violated: C135 fails in one point: `ratio(41, 0)` overflows to infinity, so \"robust\" does not mean finite. C135_make_bounded_strict_violated: C135 fails in another: in floating point `make_bounded` need not be strictly inside the interval. For `vmin = 64` the `EPS` is lost and `make_bounded(0, 64, 128)` is `64`. (In exact arithmetic C06 says strictly inside.)"
  },
  {
   "property": "C136",
   "status": "partial",
   "theorems": [
    "Verif.PTE.C136_pt",
    "Verif.PTE.C136_rhoT_exclude",
    "Verif.PTE.C136_rhoT_partial",
    "Verif.PTE.C136_fixedT",
    "Verif.PTE.C136_fixedP",
    "Verif.PTE.C136_rhoU",
    "Verif.PTE.C136_zero_rhoT",
    "Verif.PTE.C136_zero_rhoU",
    "Verif.PTE.C136_rhoT_stale_violated"
   ],
   "note": "C136_rhoT_partial: C136, `PTESolverRhoT` choosing the left-out material itself: the residual reported is the merit of the returned state with pressures compared with those of some material, so it is right up to a factor `2 n` for every choice of that material, and it is zero exactly when the returned pressures agree and the energies add up. C136_rhoT_stale_violated: C136 is violated by RhoT with default parameters: `Fixup` picks the material of largest volume, recomputes the residual with pressures compared with that material's and does not recompute the norm. Here the residual reported is twice that of the returned state."
  },
  {
   "property": "C137",
   "status": "partial",
   "theorems": [
    "Verif.C137_never_negative",
    "Verif.C137_lookups",
    "Verif.C137_round_trip",
    "Verif.C137_pressure_routes",
    "Verif.C137_density_round_trip",
    "Verif.C137_energy_from_pressure",
    "Verif.C137_reference",
    "Verif.C137_pressure_monotone",
    "Verif.C137_other_monotone",
    "Verif.C137_temperature_monotone",
    "Verif.C137_pressure_nan_iff",
    "Verif.C137_overflow_violated",
    "Verif.C137_cold_density_violated",
    "Verif.C137_zero_parameters_violated"
   ],
   "note": "C137_overflow_violated: C137 fails in one point: intermediate overflow. For `gm1 = 2`, `ρ = 2^1023` and `e = 2^-1000` the exact pressure `2^24` is a `double`, but the computed one is infinite; at zero energy it is NaN. C137_cold_density_violated: C137 fails in another point: at zero pressure and zero temperature, a state of the gas, the density from pressure and temperature is NaN; and at zero temperature and positive pressure it is infinite. C137_zero_parameters_violated: C137 fails in a third: `CheckParams` accepts `gm1 = 0` and `Cv = 0`, and then temperature and density are NaN or infinite for ordinary states."
  },
  {
   "property": "C138",
   "status": "partial",
   "theorems": [
    "Verif.C138_scaled_lookups",
    "Verif.C138_scaled_bounds",
    "Verif.C138_scaled_round_trip",
    "Verif.C138_scaled_power_of_two",
    "Verif.C138_shifted_lookups",
    "Verif.C138_shifted_results",
    "Verif.C138_shifted_round_trip",
    "Verif.C138_shifted_exact",
    "Verif.C138_shifted_monotone",
    "Verif.C138_shifted_loses_energy_violated",
    "Verif.C138_scaled_bound_violated"
   ],
   "note": "C138_shifted_loses_energy_violated: C138 fails in one point: a large shift loses the energy. An ideal gas with `Cv = 1` shifted by `2^60`: temperature 1 to energy and back gives temperature 0. C138_scaled_bound_violated: C138 fails in another: the density bounds that `ScaledEOS` reports are not inside the wrapped domain. With scale 3 and a wrapped minimum of 7, the density at the reported minimum reaches the wrapped equation of state as `7 - 2^{-50}`."
  },
  {
   "property": "C139",
   "status": "partial",
   "theorems": [
    "Verif.C139_lookups",
    "Verif.C139_consistent",
    "Verif.C139_min_energy",
    "Verif.C139_fill",
    "Verif.C139_fill_energy_violated",
    "Verif.C139_fill_writes_inputs_violated",
    "Verif.C139_reference_violated",
    "Verif.C139_entropy_violated"
   ],
   "note": "C139_fill_energy_violated: C139 fails in one point: `FillEos` never gives the energy of a given temperature: asked for the energy alone it aborts, and asked for energy and temperature (from density and pressure, of which neither follows) it returns the energy of whatever temperature was passed. C139_fill_writes_inputs_violated: C139 fails in another: `FillEos` writes the pressure, bulk modulus and heat capacity whether asked or not. C139_reference_violated: C139 fails in a third: the reference state is consistent only for `Cv = 1`, and does not report the heat capacity: the variable of the caller keeps its value. C139_entropy_violated: C139 fails in a fourth: the entropy is the constant zero, so `T dS = Cv dT` at constant volume does not hold for `Cv ≠ 0`."
  },
  {
   "property": "C140",
   "status": "proved",
   "theorems": [
    "Verif.C140_read",
    "Verif.C140_write",
    "Verif.C140_own",
    "Verif.C140_read_after_write",
    "Verif.C140_map_lifetime",
    "Verif.C140_scatter",
    "Verif.C140_independent"
   ],
   "note": ""
  },
  {
   "property": "C141",
   "status": "partial",
   "theorems": [
    "Verif.Kinetic.C141_sort",
    "Verif.Kinetic.C141_mass_fractions",
    "Verif.Kinetic.C141_exponent",
    "Verif.Kinetic.C141_max_time_step",
    "Verif.Kinetic.C141_max_step_finite_violated",
    "Verif.Kinetic.C141_zero_mass_violated",
    "Verif.Kinetic.C141_rates"
   ],
   "note": "C141_max_step_finite_violated: C141, fails: the largest recommended time step can give NaN. For two phases with finite parameters and Gibbs energies whose difference, over the width, squares beyond the largest double, the rate is `+inf`, the recommended step is `-inf`, and with it both mass fractions become NaN. C141_zero_mass_violated: C141, fails: with a finite time step and mass fractions that sum to one, a phase without mass that receives some and leaves at an infinite rate gets NaN (`+inf` plus `log 0`), and so does the phase it would go to."
  },
  {
   "property": "C142",
   "status": "proved",
   "theorems": [
    "Verif.RootFind.C142_histogram",
    "Verif.RootFind.C142_recorded",
    "Verif.RootFind.C142_newton_iterations",
    "Verif.RootFind.C142_newton_failed",
    "Verif.RootFind.C142_secant_iterations",
    "Verif.RootFind.C142_regulaFalsi_failed"
   ],
   "note": ""
  },
  {
   "property": "C143",
   "status": "partial",
   "theorems": [
    "Verif.Examples.C143_grid_device",
    "Verif.Examples.C143_grid_points",
    "Verif.Examples.C143_grid_saved_square",
    "Verif.Examples.C143_grid_host_in_range_iff",
    "Verif.Examples.C143_grid_overrun_violated",
    "Verif.Examples.C143_grid_saved_violated",
    "Verif.Examples.C143_map_row",
    "Verif.Examples.C143_map_range",
    "Verif.Examples.C143_map_all_failed_violated",
    "Verif.Examples.C143_pte_start",
    "Verif.Examples.C143_pte_tolerances",
    "Verif.Examples.C143_sound_speed",
    "Verif.Examples.C143_arguments_present",
    "Verif.Examples.C143_arguments_missing_violated"
   ],
   "note": "C143_grid_overrun_violated: C143 is violated for a table with more temperatures than densities: the host loop writes behind the end of the table. C143_grid_saved_violated: C143 is violated for a table with more densities than temperatures: what is saved for density number `nT` and the lowest temperature is the pressure at the density before it and at whatever memory holds behind the temperatures. C143_map_all_failed_violated: C143 is violated if the search fails for every volume fraction: the map of residuals is then drawn for temperatures from the materials' minimum down to the mark `-1`. C143_arguments_missing_violated: C143 is violated: `pte_2mat`, `map_pt_space` and `eos_grid` accept command lines that lack the arguments of the EOS, and then read past the end of the argument list."
  },
  {
   "property": "C144",
   "status": "partial",
   "theorems": [
    "Verif.C144_floors",
    "Verif.C144_nan_violated",
    "Verif.C144_monotone",
    "Verif.C144_energy",
    "Verif.C144_temperature",
    "Verif.C144_round_trip",
    "Verif.C144_pressure_temperature",
    "Verif.C144_pressure_energy",
    "Verif.C144_bulk_modulus",
    "Verif.C144_density_energy",
    "Verif.C144_round_trip_violated"
   ],
   "note": "C144_nan_violated: C144 (violated): a NaN argument is not passed on. The temperature of a NaN energy is `SMALL`, its pressure `-Pinf`, and the energy of a NaN temperature is `q`: ordinary numbers, for every gas. C144_round_trip_violated: C144 (violated): the temperature is lost where `Pinf` dominates: with `rho = Cv = 1`, `Pinf = 2^60` and `q = 0`, the energy of the temperature 1 is `2^60`, whose temperature is `SMALL`, about `2·10^{-307}`."
  },
  {
   "property": "C145",
   "status": "partial",
   "theorems": [
    "Verif.C145_floors",
    "Verif.C145_nan_violated",
    "Verif.C145_monotone",
    "Verif.C145_energy_temperature",
    "Verif.C145_round_trip",
    "Verif.C145_pressure",
    "Verif.C145_bulk_modulus",
    "Verif.C145_density_energy",
    "Verif.C145_overpacked_violated"
   ],
   "note": "C145_nan_violated: C145 (violated): a NaN energy has the temperature, pressure and bulk modulus `SMALL`, a NaN temperature the energy `q`. C145_overpacked_violated: C145 (violated): beyond the packing limit the pressure is not large but `SMALL`: for `b = 1` and any finite density of 2 or more, whatever the positive temperature."
  },
  {
   "property": "C146",
   "status": "partial",
   "theorems": [
    "Verif.C146_bisect_spacing_violated",
    "Verif.C146_bisect_dense_violated",
    "Verif.C146_regula_falsi_terminates",
    "Verif.C146_regula_falsi_hangs_violated",
    "Verif.C146_regula_falsi_nan_violated",
    "Verif.C146_regula_falsi_underflow_violated",
    "Verif.C146_regula_falsi_stop_rule",
    "Verif.C146_findRoot_success",
    "Verif.C146_findRoot_nan_violated",
    "Verif.C146_findRoot_nan_at_root_violated",
    "Verif.C146_newton_success",
    "Verif.C146_newton_zero_target_violated",
    "Verif.C146_newton_flat_violated",
    "Verif.C146_regula_falsi_exact",
    "Verif.C146_newton_exact",
    "Verif.C146_findRoot_exact"
   ],
   "note": "C146_bisect_spacing_violated: C146 violated: bisection cannot meet an absolute tolerance finer than the spacing of doubles. If the bracket lies at or above `2^k`, the tolerance is at most `2^(k-52)`, and the function changes sign but is not exactly on target at any double of the bracket, `bisect` reports FAIL, after all its 1000 halvings — although the bracket is as narrow as two neighbouring doubles allow. C146_bisect_dense_violated: C146 violated: with the tolerance the library uses for \"density from pressure and temperature\", `10` epsilons, this is the case for every density of at least 16 (gold, tungsten, uranium in g/cm³; everything in kg/m³): whatever the number of halvings, the loop does not find its bracket narrow enough. C146_regula_falsi_hangs_violated: C146 is violated for a negative tolerance: `regula_falsi` on `f(x) = x` between `0` and `1` never stops. (When the secant point is an end of the interval the pass is not counted.) C146_regula_falsi_nan_violated: C146 is violated: a NaN is taken for a root. With values `-1` at `0`, `1` at `1` and NaN at `1/2`, `regula_falsi` reports SUCCESS and the root `1/2`. C146_regula_falsi_underflow_violated: C146 is violated: residuals whose product underflows pass for a sign change. For the constant residual `2^-1000`, which has no root, `regula_falsi` between `0` and `1` reports SUCCESS and the root `+inf`. C146_findRoot_nan_violated: C146 is violated by a function without values: `findRoot` on a function that is NaN everywhere reports success, for every target. C146_findRoot_nan_at_root_violated: C146 is violated: a function with values everywhere the iteration looks except at the point where it ends. The last change is below the tolerance, the error there is NaN, and `findRoot` reports success. C146_newton_zero_target_violated: C146 is violated for a zero target: the error is compared with `|ytol * ytarget| = 0`, so `newton_raphson` fails even if it starts at an exact root. C146_newton_flat_violated: C146 is violated where the slope vanishes: with `fail_on_bound_root = false`, `newton_raphson` started at its upper bound reports success with the root `+inf`."
  },
  {
   "property": "C147",
   "status": "partial",
   "theorems": [
    "Verif.C147_rhoT_check_finite",
    "Verif.C147_pt_check_finite",
    "Verif.C147_fixedT_check_finite",
    "Verif.C147_fixedP_check_finite",
    "Verif.C147_rhoU_check_finite_partial",
    "Verif.C147_rhoU_check_nan_violated",
    "Verif.C147_single_material_nan_violated",
    "Verif.C147_norm_nan",
    "Verif.C147_driver_bounded",
    "Verif.C147_driver_converged",
    "Verif.C147_nan_step_accepted_violated",
    "Verif.C147_nan_old_error_violated",
    "Verif.C147_nan_scale_violated",
    "Verif.C147_last_iteration_nan_violated",
    "Verif.C147_residuals_exact",
    "Verif.C147_checks_exact",
    "Verif.C147_driver_exact",
    "Verif.C147_parabola_range",
    "Verif.C147_parabola_inf_violated"
   ],
   "note": "C147_rhoU_check_finite_partial: C147, RhoU: with two or more materials a test that passes means that every pressure and every temperature is a finite number. Volume fractions and energies are not looked at (`C147_rhoU_check_nan_violated`). C147_rhoU_check_nan_violated: C147 is violated for RhoU: the test with the default tolerances passes with every volume fraction and every energy NaN, as long as pressures and temperatures agree. C147_single_material_nan_violated: C147 is violated for one material: RhoT and FixedT do not look at its pressure at all, which may be NaN. C147_nan_step_accepted_violated: C147 is violated: a full step whose error is NaN — by `C147_norm_nan` also one whose residual overflows — is accepted without backtracking, whatever the old error was. C147_nan_old_error_violated: C147 is violated: a NaN old error accepts every full step. C147_nan_scale_violated: C147 is violated: a step limit of NaN from `ScaleDx` is taken for \"no limit\": `std::min(1.0, NaN)` is 1. C147_last_iteration_nan_violated: C147 is violated: with the default parameters, in double precision with any rounding to nearest, the driver can report `converged` with a NaN residual and a state that is not even acceptable: the update of the last allowed iteration is never looked at. C147_parabola_inf_violated: C147 is violated by an infinite error: if the full step's error is `+inf`, the half step being an improvement, the step fraction is NaN."
  },
  {
   "property": "C148",
   "status": "partial",
   "theorems": [
    "Verif.SC.C148_ideal_gas",
    "Verif.SC.C148_boltzmann",
    "Verif.SC.C148_temperature",
    "Verif.SC.C148_density",
    "Verif.SC.C148_composition",
    "Verif.SC.C148_gruneisen",
    "Verif.SC.C148_entropy_violated"
   ],
   "note": "C148_entropy_violated: C148: the entropy in the file is `P rho^-gam`, not the entropy of the gas. With the default arguments the entropy read rises by more than a billion times `cv ln(T2/T1)`, the entropy change of the gas, from the lowest to the highest temperature of the table."
  },
  {
   "property": "C149",
   "status": "partial",
   "theorems": [
    "Verif.RhoT.C149_top",
    "Verif.RhoT.C149_points",
    "Verif.RhoT.C149_temperature_round_trip",
    "Verif.RhoT.C149_density_round_trip",
    "Verif.RhoT.C149_cold",
    "Verif.RhoT.C149_bulk_positive",
    "Verif.RhoT.C149_minimum_pressure",
    "Verif.RhoT.C149_reference",
    "Verif.RhoT.C149_reference_middle",
    "Verif.RhoT.C149_expansion_iff",
    "Verif.RhoT.C149_bounds",
    "Verif.RhoT.C149_mass_fractions",
    "Verif.RhoT.C149_fractions_above_violated",
    "Verif.RhoT.C149_lambda_cells_violated"
   ],
   "note": "C149_fractions_above_violated: C149 fails above the table: the fractions by energy are extrapolated with the temperature, so that (with any file whose fractions vary along the isochore, here `demo`) at every energy above the last isotherm one fraction is negative and one above one. C149_lambda_cells_violated: C149 fails for the variant that writes to `lambda`: phase `n` goes to cell `2 + n`, beyond the two cells that the class asks for (`nlambda()`), and there is always at least one, so that an array of `nlambda()` cells is overrun."
  },
  {
   "property": "C150",
   "status": "proved",
   "theorems": [
    "Verif.Sp5.C150_points",
    "Verif.Sp5.C150_derivatives",
    "Verif.Sp5.C150_cold",
    "Verif.Sp5.C150_temperature",
    "Verif.Sp5.C150_near_points"
   ],
   "note": ""
  },
  {
   "property": "C151",
   "status": "partial",
   "theorems": [
    "Verif.Sp5.C151_by_temperature",
    "Verif.Sp5.C151_derivatives",
    "Verif.Sp5.C151_by_energy",
    "Verif.Sp5.C151_cold",
    "Verif.Sp5.C151_cell",
    "Verif.Sp5.C151_near_points",
    "Verif.Sp5.C151_density_above",
    "Verif.Sp5.C151_shift_violated",
    "Verif.Sp5.C151_reference"
   ],
   "note": "C151_shift_violated: C151 does not hold for the classes with an energy transform: the tables by energy that `sesame2spiner` writes are by energy, but they are read at the transformed energy. With `ShiftTransform`, the temperature reported for EOSPAC's energy `e` above the cold curve is EOSPAC's temperature at `e` less the cold energy: below EOSPAC's own, if the temperature rises with energy and the cold energy is positive."
  },
  {
   "property": "C152",
   "status": "partial",
   "theorems": [
    "Verif.CApi.C152_row_irrelevant",
    "Verif.CApi.C152_call",
    "Verif.CApi.C152_order",
    "Verif.CApi.C152_repeat",
    "Verif.CApi.C152_modes",
    "Verif.CApi.C152_eos_range",
    "Verif.CApi.C152_no_material_violated",
    "Verif.CApi.C152_return_violated",
    "Verif.CApi.C152_no_kokkos_violated"
   ],
   "note": "C152_no_material_violated: C152 is violated when no material is above the cutoff (two materials of equal mass, cutoff 1/2): the energy reported in (density, temperature) mode is computed from whatever density the scratch memory held. C152_return_violated: C152 is violated by the return value, announced as the number of failures: it is zero even when the PTE solve of the only cell did not converge. C152_no_kokkos_violated: C152 is violated in a build without Kokkos: a call returns zero, as for success, and computes nothing. Cell 1 has pressure 0 before and after, although its material's pressure at the given density and energy is 1."
  },
  {
   "property": "C153",
   "status": "partial",
   "theorems": [
    "Verif.Ctor.C153_accepts_iff",
    "Verif.Ctor.C153_debug_tests",
    "Verif.Ctor.C153_never_rejects_usable",
    "Verif.Ctor.C153_ready_is_enough",
    "Verif.Ctor.C153_accepted_gas_partial",
    "Verif.Ctor.C153_short_ideal",
    "Verif.Ctor.C153_modifier_checks_inside",
    "Verif.Ctor.C153_modifier_iff",
    "Verif.Ctor.C153_zero_accepted_violated",
    "Verif.Ctor.C153_nan_accepted_violated",
    "Verif.Ctor.C153_gruneisen_violated",
    "Verif.Ctor.C153_release_violated",
    "Verif.Ctor.C153_infinite_inverse_violated",
    "Verif.Ctor.C153_floored_violated"
   ],
   "note": "C153_accepted_gas_partial: C153 (part): for `CarnahanStarling` with finite parameters and a positive reference state, construction succeeds exactly when the parameters are those its thermodynamic properties need; for `IdealGas` and `NobleAbel` it succeeds with a zero in addition (and for `StiffGas`, whatever the stiffness pressure). C153_zero_accepted_violated: C153 (violated part): zeros are accepted where the EOS divides by them: an ideal or stiffened gas of zero specific heat is constructed, though it is not usable, and the ideal gas then returns an infinite temperature for every positive energy. C153_nan_accepted_violated: C153 (violated part): parameters that are not numbers are accepted: all of those `StiffGas` does not test, and all tested parameters of `MGUsup`, `PowerMG` and `Vinet` (whose tests have the form \"stop if negative\", which NaN is not). C153_gruneisen_violated: C153 (violated part): `Gruneisen` is constructed with any parameters whatever, also inside `ZSplit`; its own `CheckParams` would refuse a NaN or negative density, and does as soon as another modifier is applied. C153_release_violated: C153 (violated part): in a release build a negative density or exponent is accepted where a debug build stops. C153_infinite_inverse_violated: C153 (violated part): a scale may be accepted although its inverse is infinite, and a speed of light although its square is. C153_floored_violated: C153 (violated part): `FlooredEnergy` has no `CheckParams`, and neither does any object that contains one, however deep."
  },
  {
   "property": "C154",
   "status": "proved",
   "theorems": [
    "Verif.Construct.C154_cpp",
    "Verif.Construct.C154_c",
    "Verif.Construct.C154_fortran",
    "Verif.Construct.C154_python",
    "Verif.Construct.C154_python_defaults",
    "Verif.Construct.C154_wrong_calls"
   ],
   "note": ""
  },
  {
   "property": "C155",
   "status": "proved",
   "theorems": [
    "Verif.VarCall.C155_array",
    "Verif.VarCall.C155_minimum_energy",
    "Verif.VarCall.C155_fill",
    "Verif.VarCall.C155_class",
    "Verif.VarCall.C155_class_needs_lambdas",
    "Verif.VarCall.C155_scalar",
    "Verif.VarCall.C155_held",
    "Verif.VarCall.C155_any_eos"
   ],
   "note": ""
  },
  {
   "property": "C156",
   "status": "partial",
   "theorems": [
    "Verif.Helm.C156_fill_aborts",
    "Verif.Helm.C156_fill",
    "Verif.Helm.C156_answers",
    "Verif.Helm.C156_by_energy",
    "Verif.Helm.C156_history",
    "Verif.Helm.C156_energy_after_temperature_violated",
    "Verif.Helm.C156_values",
    "Verif.Helm.C156_reference",
    "Verif.Helm.C156_reference_expansion_violated",
    "Verif.Helm.C156_pressure_temperature_state",
    "Verif.Helm.C156_pressure_temperature",
    "Verif.Helm.C156_pressure_temperature_ideal",
    "Verif.Helm.C156_composition"
   ],
   "note": "C156_energy_after_temperature_violated: **C156 violated** for queries by energy, on a lambda with a log-temperature entry: once the energy, pressure, heat capacity or bulk modulus has been asked for at a temperature `T`, every query by density and energy answers for `T`, whatever density it is asked at and whatever the energy. C156_reference_expansion_violated: C156 violated in the last entry: the thermal expansion `dv/dT` reported with the reference state is zero, which it is not, for every composition, with or without radiation, with electrons that are not degenerate."
  },
  {
   "property": "C157",
   "status": "partial",
   "theorems": [
    "Verif.SC.C157_null",
    "Verif.SC.C157_answers",
    "Verif.SC.C157_electron_fraction",
    "Verif.SC.C157_history",
    "Verif.SC.C157_history_energy",
    "Verif.SC.C157_cached_round_trip",
    "Verif.SC.C157_reference_violated",
    "Verif.SC.C157_reference_pressure_violated"
   ],
   "note": "C157_reference_violated: C157 is violated by the reference state: after it the caller's electron fraction is that of the reference state, 0.3517, and every later call answers for that composition, until the caller restores his own. C157_reference_pressure_violated: C157 is violated: on this table the pressure of one and the same state is 10 before the reference state is asked for and `10^0.3517` after it."
  },
  {
   "property": "C158",
   "status": "partial",
   "theorems": [
    "Verif.RhoT.C158_any_lambda",
    "Verif.RhoT.C158_mass_fractions",
    "Verif.RhoT.C158_diagnostics",
    "Verif.RhoT.C158_fill_lambda",
    "Verif.RhoT.C158_table_status_violated",
    "Verif.RhoT.C158_any_lambda_energy",
    "Verif.RhoT.C158_pressure_temperature",
    "Verif.RhoT.C158_cached_round_trip",
    "Verif.RhoT.C158_reproducible_violated"
   ],
   "note": "C158_table_status_violated: C158 is violated by the calls made with a temperature: they leave `TableStatus` as the last inversion left it. A state beyond the hottest isotherm, whose pressure is extrapolated, is still reported as being on the table after an earlier query on the table. C158_reproducible_violated: C158 is violated by `reproducibility_mode`: it replaces the default guess but still prefers the one in the lambda, so the answer depends on what was asked before. For the energy `10^-14` a fresh lambda gives the temperature `10^-14`, one with `1.5 10^-14` in the cache gives `0.75 10^-14`."
  },
  {
   "property": "C159",
   "status": "partial",
   "theorems": [
    "Verif.RhoSie.C159_any_lambda",
    "Verif.RhoSie.C159_history",
    "Verif.RhoSie.C159_mass_fractions",
    "Verif.RhoSie.C159_root_status",
    "Verif.RhoSie.C159_table_status_violated",
    "Verif.RhoSie.C159_cached_round_trip",
    "Verif.RhoSie.C159_pressure_temperature",
    "Verif.RhoSie.C159_reproducible_violated"
   ],
   "note": "C159_table_status_violated: C159 is violated for the entry `TableStatus`: no call ever writes it, so a caller reads what was there before, also after a call for a pressure beyond the table. C159_reproducible_violated: C159 is violated by `reproducibility_mode`: it replaces the default guess but still prefers the one in the lambda, so the answer depends on what was asked before. For the pressure `10^-14` a fresh lambda gives the density `10^-14`, one with `1.5 10^-14` in the cache gives `0.75 10^-14`."
  },
  {
   "property": "C160",
   "status": "partial",
   "theorems": [
    "Verif.PTE.Acc.C160_in_bounds",
    "Verif.PTE.Acc.C160_residual_once",
    "Verif.PTE.Acc.C160_jacobian_filled",
    "Verif.PTE.Acc.C160_update_complete",
    "Verif.PTE.Acc.C160_in_memory",
    "Verif.PTE.Acc.C160_rhoU_one_violated",
    "Verif.PTE.Acc.C160_exclude_violated"
   ],
   "note": "C160_rhoU_one_violated: C160 violation: RhoU with one material. `Jacobian` writes six numbers into a Jacobian of four; the two others are the first two of `dx`, which `Solve` overwrites next, so nothing outside the solver's memory is hit. But the second row, the energy equation (written with 0 and 1), is overwritten by what is meant for the rows of the pressure and temperature differences, which do not exist with one material. C160_exclude_violated: C160 violation: RhoT told to exclude a material that does not exist (`PORTABLE_REQUIRE` only looks in debug builds). `Residual` then has one equation too many: it writes one past the residual, onto the internal energy of the first material, and reads a pressure the caller never provided; every trial step writes a volume fraction past the caller's array."
  },
  {
   "property": "C161",
   "status": "partial",
   "theorems": [
    "Verif.C161_floor",
    "Verif.C161_floor_twice",
    "Verif.C161_floor_monotone",
    "Verif.C161_floor_nan_violated",
    "Verif.C161_ramp_larger",
    "Verif.C161_ramp_nan_violated",
    "Verif.C161_ramp_first_part",
    "Verif.C161_ramp_second_part",
    "Verif.C161_ramp_round_trip",
    "Verif.C161_ramp_bulk",
    "Verif.C161_ramp_kink_violated",
    "Verif.C161_relativistic_total",
    "Verif.C161_relativistic_value",
    "Verif.C161_relativistic_hides_nan_violated",
    "Verif.C161_units_by_energy",
    "Verif.C161_units_by_temperature",
    "Verif.C161_units_fill_inputs_partial",
    "Verif.C161_units_fill_drifts_violated"
   ],
   "note": "C161_floor_nan_violated: C161 fails here: a minimum energy that is NaN disables the floor, whatever the energy; and an energy that is NaN is passed on to the wrapped equation of state instead of being replaced by the minimum. C161_ramp_nan_violated: C161 fails here: a NaN wrapped pressure is returned as it is, although the ramp pressure is well defined; and where the ramp pressure is NaN the wrapped pressure is returned unchecked. C161_ramp_kink_violated: C161 fails at the mid density: with the ramp `r0 = 3/4, a = 1/4, b = 1, c = 5/4` (mid density 1, every constructor operation exact) the computed ramp pressure falls when the density goes up from the last number below 1 to 1. C161_relativistic_hides_nan_violated: C161 fails here: a NaN bulk modulus of the wrapped equation of state is reported as the number 0, and so is every failure of its pressure or energy. C161_units_fill_inputs_partial: C161: `FillEos` of `UnitSystem` writes back even the quantities it is given: density, temperature and energy that the wrapped `FillEos` leaves alone are returned up to three roundings (see the next theorem for a case where they change). C161_units_fill_drifts_violated: C161 fails here: `FillEos` of `UnitSystem` changes its input. With a density unit of 49 and a wrapped `FillEos` that leaves the density alone, density 1 comes back as `1 - 2^{-53}`, and calling `FillEos` again lowers it again."
  },
  {
   "property": "C162",
   "status": "partial",
   "theorems": [
    "Verif.PAlpha.C162_points_found",
    "Verif.PAlpha.C162_points_accurate",
    "Verif.PAlpha.C162_ramp",
    "Verif.PAlpha.C162_no_softening",
    "Verif.PAlpha.C162_ideal_gas",
    "Verif.PAlpha.C162_bound_overflows_violated",
    "Verif.PAlpha.C162_unreached_crush_violated",
    "Verif.PAlpha.C162_elastic_below_reference_violated",
    "Verif.PAlpha.C162_silent_ramp_violated"
   ],
   "note": "C162_bound_overflows_violated: C162 violated: the cap on the exponent is meant to keep the upper bound representable, but the exponential is then multiplied by `rho0`: for a soft solid (or a large crush pressure) of reference density above 100/99 the bound exceeds the largest number. C162_unreached_crush_violated: C162 violated: a failed search is not reported. If the solid does not reach the crush pressure at any density between the porous density and the upper bound, the second search always fails, whatever the hardware does on a division by zero; the function returns parameters all the same and its caller cannot tell. C162_elastic_below_reference_violated: C162 violated: an elastic limit below the reference pressure. The search starts at the porous density, whose solid part is at the reference density, so for a solid whose pressure only rises on compression the answer is below the searched interval: the first search always fails, unreported. C162_silent_ramp_violated: C162 violated, concretely: a solid that levels off at pressure 3, asked for an elastic limit of 1/2 and a crush pressure of 4. The first search succeeds, the second fails, and the function returns the parameters of a ramp that the constructor accepts and that reaches the crush pressure at the upper bound of the search, where the solid's pressure is 3."
  },
  {
   "property": "C163",
   "status": "partial",
   "theorems": [
    "Verif.C163_floors",
    "Verif.C163_nan_violated",
    "Verif.C163_energy_temperature",
    "Verif.C163_round_trip",
    "Verif.C163_monotone",
    "Verif.C163_pressure",
    "Verif.C163_bulk_modulus",
    "Verif.C163_no_covolume",
    "Verif.C163_density",
    "Verif.C163_density_nan",
    "Verif.C163_thin_gas_violated"
   ],
   "note": "C163_nan_violated: C163 (violated): a NaN energy has the temperature, pressure and bulk modulus `SMALL`, a NaN temperature the energy `q`, and a NaN density the pressure and bulk modulus `SMALL`. C163_thin_gas_violated: C163 (violated): the tolerances of the density search are absolute, so for a thin gas the answer is half the starting guess, whatever the pressure: with `b = gm1 = Cv = T = 1` and any guess `2 H` up to `2^-30`, every pressure from 0 up to the guess has the \"density\" `H` (the true density is at most the pressure, so it can be smaller by any factor)."
  },
  {
   "property": "C164",
   "status": "partial",
   "theorems": [
    "Verif.Props.FortranAbi.C164_convention",
    "Verif.Props.FortranAbi.C164_types",
    "Verif.Props.FortranAbi.C164_arguments",
    "Verif.Props.FortranAbi.C164_names",
    "Verif.Props.FortranAbi.C164_optionals",
    "Verif.Props.FortranAbi.C164_handle_partial",
    "Verif.Props.FortranAbi.C164_handle_violated",
    "Verif.Props.FortranAbi.C164_intent_violated"
   ],
   "note": "C164_handle_partial: C164: with a compiler that passes the address of the handle itself, the handle is the new array after the initialisation and null after finalising, whatever it was. C164_handle_violated: C164 is violated for compilers that pass a copy, which the declaration `intent(in)` of the handle allows: after `init_sg_eos_f` the handle is still null, so the array is lost and every later call works on null; and after `finalize_sg_eos_f` a handle still points to the deleted array. With every way of passing, an argument that is declared not to change does or should have: no single value of the handle is right for both the declaration and the interface. C164_intent_violated: C164 is violated by the mixed call: `get_sg_eos_f` declares the per-cell arrays `intent(in)`, that is, as not changed by the call, but the pressure-temperature call changes `pmax`, `vol`, `spvol`, `sie`, `bmod`, `dpde` and `cv` of a cell (so a compiler that relies on the declaration may go on using the values from before the call)."
  },
  {
   "property": "C165",
   "status": "partial",
   "theorems": [
    "Verif.Ieee.C165_branch",
    "Verif.Ieee.C165_pressure",
    "Verif.Ieee.C165_gruneisen",
    "Verif.Ieee.C165_bulk_modulus",
    "Verif.Ieee.C165_nothing_masked",
    "Verif.Ieee.C165_zero_reference_violated"
   ],
   "note": "C165_zero_reference_violated: Fails: a reference density of 0 is accepted (\"must be non-negative\"), but then no pressure, bulk modulus or Gruneisen parameter is ever an ordinary number, at any density and energy."
  },
  {
   "property": "C166",
   "status": "partial",
   "theorems": [
    "Verif.Ieee.C166_never_negative_nor_nan",
    "Verif.Ieee.C166_ideal_gas",
    "Verif.Ieee.C166_negative_state",
    "Verif.Ieee.C166_lookups",
    "Verif.Ieee.C166_round_trip",
    "Verif.Ieee.C166_density_round_trip",
    "Verif.Ieee.C166_gamma",
    "Verif.Ieee.C166_heat_capacity",
    "Verif.Ieee.C166_neutral_violated",
    "Verif.Ieee.C166_nan_masked_violated"
   ],
   "note": "C166_neutral_violated: C166 fails at ionization state 0 (neutral atoms, an ordinary state): a positive energy has infinite temperature, a temperature does not survive the way to energy and back, and at a positive density and energy the pressure by energy is positive and the pressure by the temperature of that energy is 0. C166_nan_masked_violated: C166 fails: NaN is masked. With a NaN ionization state the heat capacity is NaN, yet temperature, energy and pressure (from the temperature) are 0 at all arguments; a NaN argument gives 0 at every ionization state."
  },
  {
   "property": "C167",
   "status": "partial",
   "theorems": [
    "Verif.Ieee.C167_temperature_round_trip",
    "Verif.Ieee.C167_pressure",
    "Verif.Ieee.C167_searched_pressure",
    "Verif.Ieee.C167_nothing_masked",
    "Verif.Ieee.C167_temperature_lost_violated",
    "Verif.Ieee.C167_reference"
   ],
   "note": "C167_temperature_lost_violated: C167 fails: when the reference energy is a float of at least `2^54` times the rounded `C_v T`, the energy of the temperature is the reference energy itself, so that temperature comes back as 0."
  }
 ]
}