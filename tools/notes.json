{
 "C02": {
  "status": "proved",
  "note": "C02_exact_conservation_violated exhibits the loss the statement bounds."
 },
 "C03": {
  "status": "proved",
  "note": "C03_fromto_ambiguous_beyond_ten_violated shows the ten-phase limit in the statement is sharp."
 },
 "C06": {
  "status": "proved",
  "note": "C06_makeBounded_exceeds_negative_bound_violated shows why hi>0 is needed."
 },
 "C08": {
  "status": "proved",
  "note": "C08_negative_xtol_never_terminates_violated shows why xtol>=0 is needed."
 },
 "C09": {
  "status": "proved",
  "note": "C09_success_outside_interval_violated is the concrete SUCCESS outside the interval mentioned in the statement."
 },
 "C10": {
  "status": "proved",
  "note": "The two _violated theorems are the limits named in the statement."
 },
 "C19": {
  "status": "proved",
  "note": "C19_pt_zero_pressure_violated shows why a non-zero pressure is needed."
 },
 "C30": {
  "status": "proved",
  "note": "C30_ramp_accepts_decreasing_violated is the accepted bad parameter set named in the statement."
 },
 "C39": {
  "status": "proved"
 },
 "C40": {
  "status": "proved"
 },
 "C44": {
  "status": "proved"
 },
 "C47": {
  "status": "proved",
  "note": "C47_vinet_bulk_clamped_violated shows the clamp named in the statement is active in strong expansion."
 },
 "C56": {
  "status": "proved",
  "note": "C56_shallow_copy_violated shows why plain copies are excluded."
 },
 "C59": {
  "status": "proved",
  "note": "C59_clamp_loses_energy_violated is an instance outside the stated range."
 },
 "C61": {
  "status": "proved",
  "note": "C61_success_without_convergence_violated shows why a rate is needed."
 },
 "C77": {
  "status": "proved"
 },
 "C91": {
  "status": "proved"
 },
 "C97": {
  "status": "proved"
 }
}