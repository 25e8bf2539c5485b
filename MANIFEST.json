{
 "claims": [
  {
   "property": "C01",
   "status": "proved",
   "theorems": [
    "Verif.Detector.C01_unpair_pair",
    "Verif.Detector.C01_pair_unpair",
    "Verif.Detector.C01_pair_range",
    "Verif.Detector.C01_unpair_neg",
    "Verif.Detector.C01_pair_injective",
    "Verif.Detector.C01_unpair_nonneg"
   ],
   "note": ""
  },
  {
   "property": "C02",
   "status": "proved",
   "theorems": [
    "Verif.Machine.C02_unpair_exact",
    "Verif.Machine.C02_pair_exact",
    "Verif.Machine.C02_roundtrip",
    "Verif.Machine.C02_injective"
   ],
   "note": ""
  },
  {
   "property": "C03",
   "status": "proved",
   "theorems": [
    "Verif.Detector.C03_charge_counter",
    "Verif.Detector.C03_tracks",
    "Verif.Detector.C03_keys"
   ],
   "note": ""
  },
  {
   "property": "C04",
   "status": "proved",
   "theorems": [
    "Verif.Detector.C04_conservation",
    "Verif.Detector.C04_inactive_point",
    "Verif.Detector.C04_active_point"
   ],
   "note": ""
  },
  {
   "property": "C05",
   "status": "proved",
   "theorems": [
    "Verif.Detector.C05_pixel_nonneg",
    "Verif.Detector.C05_no_charge_created"
   ],
   "note": ""
  },
  {
   "property": "C06",
   "status": "proved",
   "theorems": [
    "Verif.Detector.C06_loss_bound"
   ],
   "note": ""
  },
  {
   "property": "C07",
   "status": "proved",
   "theorems": [
    "Verif.Detector.C07_active_pads"
   ],
   "note": ""
  },
  {
   "property": "C08",
   "status": "proved",
   "theorems": [
    "Verif.Detector.C08_time_range",
    "Verif.Detector.C08_survivors",
    "Verif.Detector.C08_source_time"
   ],
   "note": ""
  },
  {
   "property": "C09",
   "status": "proved",
   "theorems": [
    "Verif.Detector.C09_unique_rows"
   ],
   "note": ""
  },
  {
   "property": "C10",
   "status": "proved",
   "theorems": [
    "Verif.Detector.C10_labels"
   ],
   "note": ""
  },
  {
   "property": "C11",
   "status": "partial",
   "theorems": [
    "Verif.Detector.C11_gain_partial",
    "Verif.Detector.C11_threshold_refuted",
    "Verif.Detector.C11_refuted",
    "Verif.Detector.C11_no_diffusion_partial"
   ],
   "note": "With diffusion a pixel whose share truncates to 0 electrons still sets the label, so a nucleus can label a point to which it contributed nothing (refuted). Proved without diffusion and with gain at least 1; with diffusion for gains from 114555, and refuted for every gain below that."
  },
  {
   "property": "C12",
   "status": "proved",
   "theorems": [
    "Verif.Detector.C12_neutral"
   ],
   "note": ""
  },
  {
   "property": "C13",
   "status": "proved",
   "theorems": [
    "Verif.Detector.C13_order_independent"
   ],
   "note": ""
  },
  {
   "property": "C14",
   "status": "proved",
   "theorems": [
    "Verif.Detector.C14_in_bounds",
    "Verif.Detector.C14_packaged"
   ],
   "note": ""
  },
  {
   "property": "C15",
   "status": "partial",
   "theorems": [
    "Verif.Detector.C15_refuted",
    "Verif.Detector.C15_integer_edges_partial",
    "Verif.Detector.C15_within_one_mm_partial",
    "Verif.Detector.C15_packaged_rows"
   ],
   "note": "position_to_index floors to whole millimetres first, so only every tenth row and column of the grid is used (refuted). Proved for whole-millimetre edges and steps; in general the bin contains the position rounded down to whole millimetres."
  },
  {
   "property": "C16",
   "status": "proved",
   "theorems": [
    "Verif.Machine.C16_division",
    "Verif.Machine.C16_exact",
    "Verif.Machine.C16_outside",
    "Verif.Machine.C16_agrees"
   ],
   "note": ""
  },
  {
   "property": "C17",
   "status": "proved",
   "theorems": [
    "Verif.Detector.C17_exact",
    "Verif.Detector.C17_one_bucket",
    "Verif.Detector.C17_end_to_end"
   ],
   "note": ""
  },
  {
   "property": "C18",
   "status": "partial",
   "theorems": [
    "Verif.Detector.C18_time_in_window",
    "Verif.Detector.C18_refuted",
    "Verif.Detector.C18_trajectory_partial",
    "Verif.Detector.C18_transport_partial",
    "Verif.Detector.C18_exact_partial"
   ],
   "note": "The forward bound of the trajectory is 1 m whatever the detector length (refuted). Proved for lengths of at least 1 m, which is shown to be the exact condition."
  },
  {
   "property": "C19",
   "status": "partial",
   "theorems": [
    "Verif.Detector.C19_exact_partial",
    "Verif.Machine.C19_float_refuted",
    "Verif.Machine.C19_float_partial",
    "Verif.Machine.C19_float_bound_partial",
    "Verif.Machine.C19_float_exact_partial"
   ],
   "note": "In binary64 the sum of bucket and offset can round up to the next integer (refuted). Proved over the reals; in binary64 the offsets that round up are characterised exactly."
  },
  {
   "property": "C20",
   "status": "proved",
   "theorems": [
    "Verif.Detector.C20_transported",
    "Verif.Detector.C20_first_point"
   ],
   "note": ""
  },
  {
   "property": "C21",
   "status": "proved",
   "theorems": [
    "Verif.Detector.C21_energy_bound",
    "Verif.Detector.C21_initial_energy_bound"
   ],
   "note": ""
  },
  {
   "property": "C22",
   "status": "proved",
   "theorems": [
    "Verif.Detector.C22_velocity",
    "Verif.Detector.C22_power",
    "Verif.Detector.C22_units",
    "Verif.Detector.C22_energy_antitone",
    "Verif.Detector.C22_lorentz_force"
   ],
   "note": ""
  },
  {
   "property": "C23",
   "status": "partial",
   "theorems": [
    "Verif.Detector.C23_exact_partial",
    "Verif.Detector.C23_refuted",
    "Verif.Detector.C23_moving_partial"
   ],
   "note": "A charged nucleus at rest, such as the target, makes equation_of_motion divide by zero (refuted). Proved for neutral nuclei and for kinetic energies of at least 1 eV; with a solver that never comes to rest, the exact condition is that every charged nucleus moves."
  },
  {
   "property": "C24",
   "status": "proved",
   "theorems": [
    "Verif.Detector.C24_bounds"
   ],
   "note": ""
  },
  {
   "property": "C25",
   "status": "proved",
   "theorems": [
    "Verif.Detector.C25_monotone",
    "Verif.Detector.C25_linear"
   ],
   "note": ""
  },
  {
   "property": "C26",
   "status": "proved",
   "theorems": [
    "Verif.Detector.C26_samples",
    "Verif.Detector.C26_nonneg_first_zero"
   ],
   "note": ""
  },
  {
   "property": "C27",
   "status": "proved",
   "theorems": [
    "Verif.Detector.C27_content",
    "Verif.Detector.C27_no_error"
   ],
   "note": ""
  },
  {
   "property": "C28",
   "status": "proved",
   "theorems": [
    "Verif.Detector.C28_splitting",
    "Verif.Detector.C28_no_empty_file"
   ],
   "note": ""
  },
  {
   "property": "C29",
   "status": "proved",
   "theorems": [
    "Verif.Detector.C29_all_stored",
    "Verif.Detector.C29_read_back",
    "Verif.Detector.C29_unchanged"
   ],
   "note": ""
  },
  {
   "property": "C30",
   "status": "proved",
   "theorems": [
    "Verif.Detector.C30_ranges"
   ],
   "note": ""
  },
  {
   "property": "C31",
   "status": "partial",
   "theorems": [
    "Verif.Detector.C31_refuted",
    "Verif.Detector.C31_partial"
   ],
   "note": "The first file records min_event = 0 even if event 0 had no points (refuted). Proved for all other files and for max_event; for the first file the exact condition is that the first event is number 0."
  },
  {
   "property": "C32",
   "status": "proved",
   "theorems": [
    "Verif.Detector.C32_names",
    "Verif.Detector.C32_no_truncation"
   ],
   "note": ""
  },
  {
   "property": "C33",
   "status": "partial",
   "theorems": [
    "Verif.Detector.C33_duplicate_partial",
    "Verif.Detector.C33_exact_partial",
    "Verif.Detector.C33_refuted",
    "Verif.Detector.C33_after_close"
   ],
   "note": "A full file lets an event number be written twice (refuted). Proved while the file is not full, which is the exact condition for events that can be formatted, and after close."
  },
  {
   "property": "C34",
   "status": "proved",
   "theorems": [
    "Verif.Detector.C34_crash"
   ],
   "note": ""
  },
  {
   "property": "C35",
   "status": "proved",
   "theorems": [
    "Verif.Props.C35_rows",
    "Verif.Props.C35_final_products",
    "Verif.Props.C35_default"
   ],
   "note": ""
  },
  {
   "property": "C36",
   "status": "proved",
   "theorems": [
    "Verif.Props.C36_logged",
    "Verif.Props.C36_complete",
    "Verif.Props.C36_interrupted"
   ],
   "note": ""
  },
  {
   "property": "C37",
   "status": "proved",
   "theorems": [
    "Verif.Props.C37_round_trip",
    "Verif.Props.C37_succeeds"
   ],
   "note": ""
  },
  {
   "property": "C38",
   "status": "proved",
   "theorems": [
    "Verif.Props.C38_chunks"
   ],
   "note": ""
  },
  {
   "property": "C39",
   "status": "proved",
   "theorems": [
    "Verif.Props.C39_prefix",
    "Verif.Props.C39_raised",
    "Verif.Props.C39_rejected"
   ],
   "note": ""
  },
  {
   "property": "C40",
   "status": "proved",
   "theorems": [
    "Verif.Props.C40_reaction"
   ],
   "note": ""
  },
  {
   "property": "C41",
   "status": "proved",
   "theorems": [
    "Verif.Props.C41_frame",
    "Verif.Props.C41_reaction",
    "Verif.Props.C41_decay"
   ],
   "note": ""
  },
  {
   "property": "C42",
   "status": "proved",
   "theorems": [
    "Verif.Props.C42_reaction",
    "Verif.Props.C42_negative_energy",
    "Verif.Props.C42_decay",
    "Verif.Props.C42_no_nan",
    "Verif.Props.C42_decay_no_nan",
    "Verif.Props.C42_threshold"
   ],
   "note": ""
  },
  {
   "property": "C43",
   "status": "partial",
   "theorems": [
    "Verif.Props.C43_decay_accepts",
    "Verif.Props.C43_refuted",
    "Verif.Props.C43_partial",
    "Verif.Props.C43_rejects",
    "Verif.Props.C43_exact"
   ],
   "note": "calculate raises for allowed samples of some reactions (refuted). Proved to hold exactly when the missing energy is not positive or the threshold formula is at most the exact threshold."
  },
  {
   "property": "C44",
   "status": "partial",
   "theorems": [
    "Verif.Props.C44_refuted",
    "Verif.Props.C44_partial",
    "Verif.Props.C44_decay_finite",
    "Verif.Props.C44_nan_range",
    "Verif.Props.C44_finite_range",
    "Verif.Props.C44_endothermic_refuted"
   ],
   "note": "calculate returns NaN exactly for beam energies from the threshold of the code up to the exact threshold (refuted, also for every endothermic reaction whose formula is too low). Proved finite from the exact threshold on."
  },
  {
   "property": "C45",
   "status": "proved",
   "theorems": [
    "Verif.Props.C45_decay"
   ],
   "note": ""
  },
  {
   "property": "C46",
   "status": "proved",
   "theorems": [
    "Verif.Props.C46_conservation"
   ],
   "note": ""
  },
  {
   "property": "C47",
   "status": "proved",
   "theorems": [
    "Verif.Props.C47_reaction",
    "Verif.Props.C47_decay",
    "Verif.Props.C47_conserved"
   ],
   "note": ""
  },
  {
   "property": "C48",
   "status": "proved",
   "theorems": [
    "Verif.Props.C48_valid",
    "Verif.Props.C48_built"
   ],
   "note": ""
  },
  {
   "property": "C49",
   "status": "partial",
   "theorems": [
    "Verif.Props.C49_first_allowed",
    "Verif.Props.C49_limit",
    "Verif.Props.C49_returns_partial",
    "Verif.Props.C49_refuted",
    "Verif.Props.C49_returns_exact_partial"
   ],
   "note": "Because of C43 run can raise ValueError although the sample is allowed (refuted). Proved for samples that calculate accepts; with the exact condition of C43 for all allowed samples."
  },
  {
   "property": "C50",
   "status": "proved",
   "theorems": [
    "Verif.Props.C50_independent",
    "Verif.Props.C50_accepted"
   ],
   "note": ""
  },
  {
   "property": "C51",
   "status": "partial",
   "theorems": [
    "Verif.Props.C51_refuted",
    "Verif.Props.C51_partial"
   ],
   "note": "run returns its internal buffer by reference (refuted). Proved for the events stored in the file."
  },
  {
   "property": "C52",
   "status": "proved",
   "theorems": [
    "Verif.Props.C52_sample",
    "Verif.Props.C52_no_target",
    "Verif.Props.C52_vertex"
   ],
   "note": ""
  },
  {
   "property": "C53",
   "status": "partial",
   "theorems": [
    "Verif.Props.C53_refuted",
    "Verif.Props.C53_partial",
    "Verif.Props.C53_decays_refuted"
   ],
   "note": "check_excitations_allowed does not add back the mass of the decaying nucleus: it rejects every sample of a pipeline with decays below nuclear rest mass energies (refuted). Proved for pipelines without decays."
  },
  {
   "property": "C54",
   "status": "proved",
   "theorems": [
    "Verif.Props.C54_order",
    "Verif.Props.C54_range",
    "Verif.Props.C54_distribution"
   ],
   "note": ""
  },
  {
   "property": "C55",
   "status": "proved",
   "theorems": [
    "Verif.Props.C55_bin",
    "Verif.Props.C55_distribution",
    "Verif.Props.C55_small_sum"
   ],
   "note": ""
  },
  {
   "property": "C56",
   "status": "proved",
   "theorems": [
    "Verif.Props.C56_uniform",
    "Verif.Props.C56_gaussian",
    "Verif.Props.C56_breit_wigner"
   ],
   "note": ""
  },
  {
   "property": "C57",
   "status": "proved",
   "theorems": [
    "Verif.Props.C57_rows",
    "Verif.Props.C57_columns",
    "Verif.Props.C57_succeeds"
   ],
   "note": ""
  },
  {
   "property": "C58",
   "status": "partial",
   "theorems": [
    "Verif.Detector.C58_refuted",
    "Verif.Detector.C58_default_partial",
    "Verif.Detector.C58_configured_partial"
   ],
   "note": "load_pad_sizes opens geometry_path when a size file is configured (refuted). Proved for the default path."
  },
  {
   "property": "C59",
   "status": "proved",
   "theorems": [
    "Verif.Machine.C59_exact",
    "Verif.Machine.C59_charge",
    "Verif.Machine.C59_stored",
    "Verif.Machine.C59_bound_needed"
   ],
   "note": ""
  },
  {
   "property": "C60",
   "status": "proved",
   "theorems": [
    "Verif.Detector.C60_raises_iff",
    "Verif.Detector.C60_drift_velocity"
   ],
   "note": ""
  },
  {
   "property": "C61",
   "status": "partial",
   "theorems": [
    "Verif.Detector.C61_refuted",
    "Verif.Detector.C61_ordinary_refuted",
    "Verif.Detector.C61_shifted_partial"
   ],
   "note": "linspace(0, 512, 512) spaces the samples by 512/511 buckets (refuted, for all ordinary settings). The actual sample times are characterised."
  },
  {
   "property": "C62",
   "status": "proved",
   "theorems": [
    "Verif.Props.C62_complete_run",
    "Verif.Props.C62_interrupted_run"
   ],
   "note": ""
  },
  {
   "property": "C63",
   "status": "proved",
   "theorems": [
    "Verif.Detector.C63_initial_value_problem",
    "Verif.Detector.C63_events"
   ],
   "note": ""
  },
  {
   "property": "C64",
   "status": "proved",
   "theorems": [
    "Verif.Detector.C64_canonical",
    "Verif.Detector.C64_circle",
    "Verif.Detector.C64_energy",
    "Verif.Detector.C64_energy_conserved"
   ],
   "note": ""
  },
  {
   "property": "C65",
   "status": "proved",
   "theorems": [
    "Verif.Props.C65_beam_pads",
    "Verif.Props.C65_listed_once",
    "Verif.Props.C65_mirror"
   ],
   "note": ""
  },
  {
   "property": "C66",
   "status": "proved",
   "theorems": [
    "Verif.Props.C66_lookup_near",
    "Verif.Props.C66_beam_hole",
    "Verif.Props.C66_all_pads_reached"
   ],
   "note": ""
  },
  {
   "property": "C67",
   "status": "proved",
   "theorems": [
    "Verif.Props.C67_format",
    "Verif.Props.C67_run",
    "Verif.Props.C67_default_config"
   ],
   "note": ""
  },
  {
   "property": "C68",
   "status": "partial",
   "theorems": [
    "Verif.Props.C68_refuted",
    "Verif.Props.C68_partial",
    "Verif.Props.C68_exceptions_partial",
    "Verif.Props.C68_lost_strip_refuted"
   ],
   "note": "Because of C15 the centres of 428 pads are assigned to another pad or to none (refuted). Proved for the other pads."
  },
  {
   "property": "C69",
   "status": "proved",
   "theorems": [
    "Verif.Props.C69_centers",
    "Verif.Props.C69_grid",
    "Verif.Props.C69_too_many_lines"
   ],
   "note": ""
  },
  {
   "property": "C70",
   "status": "proved",
   "theorems": [
    "Verif.Detector.C70_draws",
    "Verif.Detector.C70_succeeds"
   ],
   "note": ""
  },
  {
   "property": "C71",
   "status": "proved",
   "theorems": [
    "Verif.Props.C71_numbers",
    "Verif.Props.C71_masses"
   ],
   "note": ""
  },
  {
   "property": "C72",
   "status": "partial",
   "theorems": [
    "Verif.Props.C72_ground_partial",
    "Verif.Props.C72_excited_partial",
    "Verif.Props.C72_refuted"
   ],
   "note": "An excited nucleus starts with too much kinetic energy because its momentum is divided by the ground state mass (refuted). Proved without excitation; with excitation the excess is bounded by the excitation energy."
  },
  {
   "property": "C73",
   "status": "proved",
   "theorems": [
    "Verif.Props.C73_reaction",
    "Verif.Props.C73_decay",
    "Verif.Props.C73_vertex"
   ],
   "note": ""
  },
  {
   "property": "C74",
   "status": "proved",
   "theorems": [
    "Verif.Props.C74_fwhm"
   ],
   "note": ""
  },
  {
   "property": "C75",
   "status": "proved",
   "theorems": [
    "Verif.Props.C75_conservation",
    "Verif.Props.C75_samples"
   ],
   "note": ""
  },
  {
   "property": "C76",
   "status": "proved",
   "theorems": [
    "Verif.Detector.C76_balance",
    "Verif.Detector.C76_charge_bound",
    "Verif.Detector.C76_no_diffusion",
    "Verif.Detector.C76_energy_bound"
   ],
   "note": ""
  },
  {
   "property": "C77",
   "status": "proved",
   "theorems": [
    "Verif.Detector.C77_centred",
    "Verif.Detector.C77_width"
   ],
   "note": ""
  },
  {
   "property": "C78",
   "status": "partial",
   "theorems": [
    "Verif.Detector.C78_effective_length_partial",
    "Verif.Detector.C78_partial",
    "Verif.Detector.C78_cloud_partial",
    "Verif.Detector.C78_refuted"
   ],
   "note": "The spread is computed from the arrival time, which includes micromegas_edge, so electrons spread as if they drifted further (refuted). Proved for micromegas_edge = 0; in general the effective length is characterised."
  },
  {
   "property": "C79",
   "status": "proved",
   "theorems": [
    "Verif.Props.C79_near_track",
    "Verif.Props.C79_no_diffusion",
    "Verif.Props.C79_complete"
   ],
   "note": ""
  },
  {
   "property": "C80",
   "status": "proved",
   "theorems": [
    "Verif.Props.C80_amplitude",
    "Verif.Props.C80_peak",
    "Verif.Props.C80_stored",
    "Verif.Props.C80_least_charge"
   ],
   "note": ""
  },
  {
   "property": "C81",
   "status": "proved",
   "theorems": [
    "Verif.Props.C81_closed_form",
    "Verif.Props.C81_azimuth",
    "Verif.Props.C81_energy_range",
    "Verif.Props.C81_elastic"
   ],
   "note": ""
  },
  {
   "property": "C82",
   "status": "proved",
   "theorems": [
    "Verif.Props.C82_fresh",
    "Verif.Props.C82_accepted",
    "Verif.Props.C82_conditional",
    "Verif.Props.C82_limit",
    "Verif.Props.C82_independent"
   ],
   "note": ""
  },
  {
   "property": "C83",
   "status": "proved",
   "theorems": [
    "Verif.Props.C83_outcome",
    "Verif.Props.C83_prefix",
    "Verif.Props.C83_simulation",
    "Verif.Props.C83_table",
    "Verif.Props.C83_simulation_prefix"
   ],
   "note": ""
  },
  {
   "property": "C84",
   "status": "proved",
   "theorems": [
    "Verif.Props.C84_table",
    "Verif.Props.C84_raised"
   ],
   "note": ""
  },
  {
   "property": "C85",
   "status": "proved",
   "theorems": [
    "Verif.Props.C85_points"
   ],
   "note": ""
  },
  {
   "property": "C86",
   "status": "proved",
   "theorems": [
    "Verif.Props.C86_completes"
   ],
   "note": ""
  },
  {
   "property": "C87",
   "status": "partial",
   "theorems": [
    "Verif.Machine.C87_partial",
    "Verif.Machine.C87_refuted"
   ],
   "note": "For spreads so small that adding them to the position changes nothing, all pixels fall on the centre and the charge is multiplied (refuted, at least sixfold at 2^-60 m). Proved for spreads between 2^-30 m and 1 m."
  },
  {
   "property": "C88",
   "status": "proved",
   "theorems": [
    "Verif.Machine.C88_conserved",
    "Verif.Machine.C88_incoming"
   ],
   "note": ""
  },
  {
   "property": "C89",
   "status": "proved",
   "theorems": [
    "Verif.Machine.C89_error",
    "Verif.Machine.C89_range",
    "Verif.Machine.C89_order",
    "Verif.Machine.C89_bucket"
   ],
   "note": ""
  },
  {
   "property": "C90",
   "status": "proved",
   "theorems": [
    "Verif.Machine.C90_track"
   ],
   "note": ""
  },
  {
   "property": "C91",
   "status": "proved",
   "theorems": [
    "Verif.Detector.C91_balance",
    "Verif.Detector.C91_range"
   ],
   "note": ""
  },
  {
   "property": "C92",
   "status": "partial",
   "theorems": [
    "Verif.Detector.C92_mean_partial",
    "Verif.Detector.C92_draws_partial",
    "Verif.Detector.C92_refuted"
   ],
   "note": "The code takes the absolute change of the kinetic energy, so the work of the electric field counts as ionisation (refuted for every non-zero field). Proved: without electric field the mean number of electrons is the energy given to the gas divided by W."
  },
  {
   "property": "C93",
   "status": "partial",
   "theorems": [
    "Verif.Detector.C93_points_partial",
    "Verif.Detector.C93_refuted"
   ],
   "note": "The writer stores an empty dataset if no point exceeds the threshold (refuted). Proved: the exact condition for a stored event to contain points."
  },
  {
   "property": "C94",
   "status": "proved",
   "theorems": [
    "Verif.Detector.C94_smaller",
    "Verif.Detector.C94_later",
    "Verif.Detector.C94_replaced"
   ],
   "note": ""
  },
  {
   "property": "C95",
   "status": "proved",
   "theorems": [
    "Verif.Detector.C95_variation",
    "Verif.Detector.C95_electrons",
    "Verif.Detector.C95_charge"
   ],
   "note": ""
  },
  {
   "property": "C96",
   "status": "proved",
   "theorems": [
    "Verif.Detector.C96_reaction",
    "Verif.Detector.C96_decay",
    "Verif.Detector.C96_event",
    "Verif.Detector.C96_motion",
    "Verif.Detector.C96_bounds",
    "Verif.Detector.C96_trajectory",
    "Verif.Detector.C96_electrons"
   ],
   "note": ""
  },
  {
   "property": "C97",
   "status": "proved",
   "theorems": [
    "Verif.Props.C97_parameters",
    "Verif.Props.C97_events"
   ],
   "note": ""
  },
  {
   "property": "C98",
   "status": "partial",
   "theorems": [
    "Verif.Detector.C98_partial",
    "Verif.Detector.C98_long_partial",
    "Verif.Detector.C98_refuted"
   ],
   "note": "Refuted: the electrons of every 0.1 ns step are cut to an integer, so a slowly losing nucleus releases none. Partial: the electrons account for the lost energy up to one electron per 0.1 ns of flight and the energy lost in the last 0.1 ns, and never for more than the lost energy."
  },
  {
   "property": "C99",
   "status": "proved",
   "theorems": [
    "Verif.Detector.C99_float",
    "Verif.Detector.C99_lines",
    "Verif.Detector.C99_centers",
    "Verif.Detector.C99_sizes",
    "Verif.Detector.C99_numbers",
    "Verif.Detector.C99_packaged"
   ],
   "note": ""
  },
  {
   "property": "C100",
   "status": "partial",
   "theorems": [
    "Verif.Props.C100_law",
    "Verif.Props.C100_point_partial",
    "Verif.Props.C100_track_partial",
    "Verif.Props.C100_refuted"
   ],
   "note": "Refuted: cutting the normal number towards zero makes the expectation smaller than energy/W wherever energy is lost. Partial: the exact law and independence, expectation within one electron below energy/W, standard deviation within one electron of sqrt(F m), additivity over the track."
  },
  {
   "property": "C101",
   "status": "proved",
   "theorems": [
    "Verif.Props.C101_tracks",
    "Verif.Props.C101_energy"
   ],
   "note": ""
  },
  {
   "property": "C102",
   "status": "proved",
   "theorems": [
    "Verif.Props.C102_unbiased",
    "Verif.Props.C102_spectrum"
   ],
   "note": ""
  },
  {
   "property": "C103",
   "status": "proved",
   "theorems": [
    "Verif.Props.C103_density",
    "Verif.Props.C103_returned"
   ],
   "note": ""
  },
  {
   "property": "C104",
   "status": "proved",
   "theorems": [
    "Verif.Props.C104_spectrum"
   ],
   "note": ""
  },
  {
   "property": "C105",
   "status": "proved",
   "theorems": [
    "Verif.Detector.C105_well_posed",
    "Verif.Detector.C105_track",
    "Verif.Detector.C105_same_cloud",
    "Verif.Detector.C105_solver"
   ],
   "note": ""
  },
  {
   "property": "C106",
   "status": "proved",
   "theorems": [
    "Verif.Detector.C106_stops",
    "Verif.Detector.C106_electrons"
   ],
   "note": ""
  },
  {
   "property": "C107",
   "status": "proved",
   "theorems": [
    "Verif.Props.C107_law",
    "Verif.Props.C107_normalised",
    "Verif.Props.C107_peak",
    "Verif.Props.C107_width"
   ],
   "note": ""
  },
  {
   "property": "C108",
   "status": "proved",
   "theorems": [
    "Verif.Detector.C108_path",
    "Verif.Detector.C108_time",
    "Verif.Detector.C108_same",
    "Verif.Detector.C108_stops"
   ],
   "note": ""
  },
  {
   "property": "C109",
   "status": "proved",
   "theorems": [
    "Verif.Machine.C109_amplitude",
    "Verif.Machine.C109_threshold",
    "Verif.Machine.C109_monotone",
    "Verif.Machine.C109_integral",
    "Verif.Machine.C109_order",
    "Verif.Machine.C109_position",
    "Verif.Machine.C109_rows"
   ],
   "note": ""
  },
  {
   "property": "C110",
   "status": "proved",
   "theorems": [
    "Verif.Machine.C110_energy",
    "Verif.Machine.C110_stop",
    "Verif.Machine.C110_electrons",
    "Verif.Machine.C110_quiet"
   ],
   "note": ""
  },
  {
   "property": "C111",
   "status": "proved",
   "theorems": [
    "Verif.Machine.C111_unpair",
    "Verif.Machine.C111_grid",
    "Verif.Machine.C111_wiggle",
    "Verif.Machine.C111_drift",
    "Verif.Machine.C111_stop",
    "Verif.Machine.C111_electrons",
    "Verif.Machine.C111_rows",
    "Verif.Machine.C111_allowed",
    "Verif.Machine.C111_reaction",
    "Verif.Machine.C111_decay"
   ],
   "note": ""
  },
  {
   "property": "C112",
   "status": "proved",
   "theorems": [
    "Verif.Props.C112_energy",
    "Verif.Props.C112_accepted",
    "Verif.Props.C112_radius",
    "Verif.Props.C112_spot",
    "Verif.Props.C112_not_gaussian"
   ],
   "note": ""
  },
  {
   "property": "C113",
   "status": "proved",
   "theorems": [
    "Verif.Detector.C113_turning",
    "Verif.Detector.C113_direction",
    "Verif.Detector.C113_depth",
    "Verif.Detector.C113_angle",
    "Verif.Detector.C113_track"
   ],
   "note": ""
  },
  {
   "property": "C114",
   "status": "proved",
   "theorems": [
    "Verif.Detector.C114_defined",
    "Verif.Detector.C114_gain",
    "Verif.Detector.C114_empty",
    "Verif.Detector.C114_silent"
   ],
   "note": ""
  },
  {
   "property": "C115",
   "status": "partial",
   "theorems": [
    "Verif.Detector.C115_boundary_partial",
    "Verif.Detector.C115_exact_partial",
    "Verif.Detector.C115_nothing_partial",
    "Verif.Detector.C115_dead_zone_partial",
    "Verif.Detector.C115_recorded_partial",
    "Verif.Detector.C115_refuted"
   ],
   "note": "Refuted for the documented settings (window edge 560): electrons from the far end of the chamber arrive after the last time bucket and are dropped. Partial: the exact boundary of the dead zone, the exact condition on the edges for recording everything, empty clouds for events in the dead zone, the full charge (without diffusion) if the edges are inside the recorded window."
  },
  {
   "property": "C116",
   "status": "proved",
   "theorems": [
    "Verif.Detector.C116_proportional",
    "Verif.Detector.C116_monotone",
    "Verif.Detector.C116_multiple",
    "Verif.Detector.C116_config"
   ],
   "note": ""
  },
  {
   "property": "C117",
   "status": "proved",
   "theorems": [
    "Verif.Detector.C117_cloud",
    "Verif.Detector.C117_outcome",
    "Verif.Detector.C117_threshold"
   ],
   "note": ""
  },
  {
   "property": "C118",
   "status": "proved",
   "theorems": [
    "Verif.Detector.C118_steps",
    "Verif.Detector.C118_pads",
    "Verif.Detector.C118_stored"
   ],
   "note": ""
  },
  {
   "property": "C119",
   "status": "proved",
   "theorems": [
    "Verif.Detector.C119_superposition",
    "Verif.Detector.C119_succeeds",
    "Verif.Detector.C119_monotone"
   ],
   "note": ""
  },
  {
   "property": "C120",
   "status": "proved",
   "theorems": [
    "Verif.Detector.C120_same_run",
    "Verif.Detector.C120_exists"
   ],
   "note": ""
  },
  {
   "property": "C121",
   "status": "proved",
   "theorems": [
    "Verif.Props.C121_directions",
    "Verif.Props.C121_complete",
    "Verif.Props.C121_missing_mass",
    "Verif.Props.C121_recover"
   ],
   "note": ""
  },
  {
   "property": "C122",
   "status": "proved",
   "theorems": [
    "Verif.Props.C122_fresh",
    "Verif.Props.C122_events",
    "Verif.Props.C122_run",
    "Verif.Props.C122_times"
   ],
   "note": ""
  },
  {
   "property": "C123",
   "status": "proved",
   "theorems": [
    "Verif.Props.C123_ellipse",
    "Verif.Props.C123_focused",
    "Verif.Props.C123_attained",
    "Verif.Props.C123_all_angles",
    "Verif.Props.C123_elastic"
   ],
   "note": ""
  },
  {
   "property": "C124",
   "status": "proved",
   "theorems": [
    "Verif.Machine.C124_event",
    "Verif.Machine.C124_stored"
   ],
   "note": ""
  },
  {
   "property": "C125",
   "status": "proved",
   "theorems": [
    "Verif.Props.C125_decay",
    "Verif.Props.C125_reaction",
    "Verif.Props.C125_chain",
    "Verif.Props.C125_decay_directions",
    "Verif.Props.C125_reaction_directions"
   ],
   "note": ""
  },
  {
   "property": "C126",
   "status": "proved",
   "theorems": [
    "Verif.Detector.C126_stops",
    "Verif.Detector.C126_track",
    "Verif.Detector.C126_electrons"
   ],
   "note": ""
  },
  {
   "property": "C127",
   "status": "proved",
   "theorems": [
    "Verif.Detector.C127_charge",
    "Verif.Detector.C127_no_diffusion"
   ],
   "note": ""
  },
  {
   "property": "C128",
   "status": "proved",
   "theorems": [
    "Verif.Props.C128_moments",
    "Verif.Props.C128_deviation",
    "Verif.Props.C128_energy"
   ],
   "note": ""
  },
  {
   "property": "C129",
   "status": "proved",
   "theorems": [
    "Verif.Props.C129_track",
    "Verif.Props.C129_electrons",
    "Verif.Props.C129_measured",
    "Verif.Props.C129_charge",
    "Verif.Props.C129_resolution"
   ],
   "note": ""
  },
  {
   "property": "C130",
   "status": "proved",
   "theorems": [
    "Verif.Machine.C130_charge",
    "Verif.Machine.C130_measured",
    "Verif.Machine.C130_packaged"
   ],
   "note": ""
  },
  {
   "property": "C131",
   "status": "proved",
   "theorems": [
    "Verif.Props.C131_energy",
    "Verif.Props.C131_excitation"
   ],
   "note": ""
  },
  {
   "property": "C132",
   "status": "proved",
   "theorems": [
    "Verif.Machine.C132_template",
    "Verif.Machine.C132_signal",
    "Verif.Machine.C132_threshold"
   ],
   "note": ""
  },
  {
   "property": "C133",
   "status": "partial",
   "theorems": [
    "Verif.Machine.C133_refuted",
    "Verif.Machine.C133_partial"
   ],
   "note": "Refuted: the sum is compared with 1 without a tolerance, so a table that sums to exactly 1 is rejected because of rounding. Partial: tables that stay below 1 by one rounding per entry are accepted, and accepted tables exceed 1 by no more than that."
  },
  {
   "property": "C134",
   "status": "proved",
   "theorems": [
    "Verif.Machine.C134_bin",
    "Verif.Machine.C134_share"
   ],
   "note": ""
  },
  {
   "property": "C135",
   "status": "proved",
   "theorems": [
    "Verif.Machine.C135_closed",
    "Verif.Machine.C135_open",
    "Verif.Machine.C135_end",
    "Verif.Machine.C135_excitation",
    "Verif.Machine.C135_polar",
    "Verif.Machine.C135_polar_returns",
    "Verif.Machine.C135_polar_outside"
   ],
   "note": ""
  },
  {
   "property": "C136",
   "status": "proved",
   "theorems": [
    "Verif.Machine.C136_allowed",
    "Verif.Machine.C136_finite",
    "Verif.Machine.C136_decay_allowed",
    "Verif.Machine.C136_decay_finite"
   ],
   "note": ""
  },
  {
   "property": "C137",
   "status": "proved",
   "theorems": [
    "Verif.Machine.C137_reaction",
    "Verif.Machine.C137_decay",
    "Verif.Machine.C137_mass"
   ],
   "note": ""
  },
  {
   "property": "C138",
   "status": "proved",
   "theorems": [
    "Verif.Machine.C138_reaction",
    "Verif.Machine.C138_decay"
   ],
   "note": ""
  },
  {
   "property": "C139",
   "status": "proved",
   "theorems": [
    "Verif.Machine.C139_motion",
    "Verif.Machine.C139_forward",
    "Verif.Machine.C139_rho",
    "Verif.Machine.C139_start",
    "Verif.Machine.C139_times",
    "Verif.Machine.C139_problem"
   ],
   "note": ""
  },
  {
   "property": "C140",
   "status": "proved",
   "theorems": [
    "Verif.Props.C140_monotone",
    "Verif.Props.C140_allowed",
    "Verif.Props.C140_first",
    "Verif.Props.C140_elastic",
    "Verif.Props.C140_stopped",
    "Verif.Props.C140_guide",
    "Verif.Machine.C140_threshold",
    "Verif.Machine.C140_machine",
    "Verif.Machine.C140_tiny"
   ],
   "note": ""
  },
  {
   "property": "C141",
   "status": "proved",
   "theorems": [
    "Verif.Machine.C141_step",
    "Verif.Machine.C141_decays",
    "Verif.Machine.C141_event",
    "Verif.Machine.C141_rejected"
   ],
   "note": ""
  },
  {
   "property": "C142",
   "status": "proved",
   "theorems": [
    "Verif.Machine.C142_sample",
    "Verif.Machine.C142_run",
    "Verif.Machine.C142_events",
    "Verif.Machine.C142_file"
   ],
   "note": ""
  },
  {
   "property": "C143",
   "status": "proved",
   "theorems": [
    "Verif.Machine.C143_run"
   ],
   "note": ""
  },
  {
   "property": "C144",
   "status": "proved",
   "theorems": [
    "Verif.Machine.C144_range",
    "Verif.Machine.C144_energy",
    "Verif.Machine.C144_gaussian",
    "Verif.Machine.C144_uniform",
    "Verif.Machine.C144_polar",
    "Verif.Machine.C144_near",
    "Verif.Machine.C144_run",
    "Verif.Machine.C144_file"
   ],
   "note": ""
  },
  {
   "property": "C145",
   "status": "proved",
   "theorems": [
    "Verif.Machine.C145_packaged",
    "Verif.Machine.C145_point",
    "Verif.Machine.C145_track",
    "Verif.Machine.C145_event",
    "Verif.Machine.C145_total"
   ],
   "note": ""
  },
  {
   "property": "C146",
   "status": "proved",
   "theorems": [
    "Verif.Machine.C146_row",
    "Verif.Machine.C146_stored",
    "Verif.Machine.C146_event"
   ],
   "note": ""
  },
  {
   "property": "C147",
   "status": "proved",
   "theorems": [
    "Verif.Machine.C147_run"
   ],
   "note": ""
  },
  {
   "property": "C148",
   "status": "proved",
   "theorems": [
    "Verif.Props.C148_apart",
    "Verif.Props.C148_distinct",
    "Verif.Props.C148_events",
    "Verif.Props.C148_run"
   ],
   "note": ""
  },
  {
   "property": "C149",
   "status": "partial",
   "theorems": [
    "Verif.Detector.C149_refuted",
    "Verif.Detector.C149_partial"
   ],
   "note": "Refuted: no file of any run has a dataset named label_#. Partial: each stored event has its label array in the file of its cloud under labels_#."
  },
  {
   "property": "C150",
   "status": "proved",
   "theorems": [
    "Verif.Props.C150_draws",
    "Verif.Props.C150_outcomes",
    "Verif.Props.C150_completes",
    "Verif.Props.C150_fails",
    "Verif.Props.C150_rarely",
    "Verif.Props.C150_eventually",
    "Verif.Props.C150_mean",
    "Verif.Props.C150_bound",
    "Verif.Props.C150_tail"
   ],
   "note": ""
  },
  {
   "property": "C151",
   "status": "proved",
   "theorems": [
    "Verif.Machine.C151_path",
    "Verif.Machine.C151_probability",
    "Verif.Machine.C151_bound"
   ],
   "note": ""
  },
  {
   "property": "C152",
   "status": "proved",
   "theorems": [
    "Verif.Props.C152_law",
    "Verif.Props.C152_binomial",
    "Verif.Props.C152_completes",
    "Verif.Props.C152_mean",
    "Verif.Props.C152_deviation",
    "Verif.Props.C152_exponential"
   ],
   "note": ""
  },
  {
   "property": "C153",
   "status": "proved",
   "theorems": [
    "Verif.Props.C153_events",
    "Verif.Props.C153_product",
    "Verif.Props.C153_binomial",
    "Verif.Props.C153_completes",
    "Verif.Props.C153_conditional"
   ],
   "note": ""
  },
  {
   "property": "C154",
   "status": "proved",
   "theorems": [
    "Verif.Props.C154_counts",
    "Verif.Props.C154_law",
    "Verif.Props.C154_independent",
    "Verif.Props.C154_total"
   ],
   "note": ""
  },
  {
   "property": "C155",
   "status": "proved",
   "theorems": [
    "Verif.Props.C155_counts",
    "Verif.Props.C155_chebyshev",
    "Verif.Props.C155_exponential",
    "Verif.Props.C155_unbiased"
   ],
   "note": ""
  },
  {
   "property": "C156",
   "status": "proved",
   "theorems": [
    "Verif.Detector.C156_motion",
    "Verif.Detector.C156_trajectory",
    "Verif.Detector.C156_complete",
    "Verif.Detector.C156_track",
    "Verif.Detector.C156_electrons",
    "Verif.Detector.C156_drift",
    "Verif.Detector.C156_cloud",
    "Verif.Detector.C156_event",
    "Verif.Detector.C156_stopped",
    "Verif.Detector.C156_point",
    "Verif.Detector.C156_stored",
    "Verif.Detector.C156_write",
    "Verif.Detector.C156_read",
    "Verif.Detector.C156_run",
    "Verif.Detector.C156_files"
   ],
   "note": ""
  },
  {
   "property": "C157",
   "status": "proved",
   "theorems": [
    "Verif.Detector.C157_turned_track",
    "Verif.Detector.C157_motion",
    "Verif.Detector.C157_trajectory",
    "Verif.Detector.C157_mirrored_track",
    "Verif.Detector.C157_electrons",
    "Verif.Detector.C157_turned",
    "Verif.Detector.C157_mirrored"
   ],
   "note": ""
  },
  {
   "property": "C158",
   "status": "proved",
   "theorems": [
    "Verif.Detector.C158_config",
    "Verif.Detector.C158_drift",
    "Verif.Detector.C158_cloud",
    "Verif.Detector.C158_inside",
    "Verif.Detector.C158_event",
    "Verif.Detector.C158_point",
    "Verif.Detector.C158_stored",
    "Verif.Detector.C158_response",
    "Verif.Detector.C158_write",
    "Verif.Detector.C158_run",
    "Verif.Detector.C158_start",
    "Verif.Detector.C158_files"
   ],
   "note": ""
  },
  {
   "property": "C159",
   "status": "proved",
   "theorems": [
    "Verif.Props.C159_threshold",
    "Verif.Props.C159_levels",
    "Verif.Props.C159_depth",
    "Verif.Props.C159_allowed",
    "Verif.Props.C159_uniform",
    "Verif.Props.C159_limit"
   ],
   "note": ""
  },
  {
   "property": "C160",
   "status": "proved",
   "theorems": [
    "Verif.Detector.C160_electrons",
    "Verif.Detector.C160_cloud",
    "Verif.Detector.C160_stored"
   ],
   "note": ""
  },
  {
   "property": "C161",
   "status": "proved",
   "theorems": [
    "Verif.Props.C161_accessible",
    "Verif.Props.C161_allowed",
    "Verif.Props.C161_spectrum"
   ],
   "note": ""
  },
  {
   "property": "C162",
   "status": "proved",
   "theorems": [
    "Verif.Detector.C162_row",
    "Verif.Detector.C162_config",
    "Verif.Detector.C162_point",
    "Verif.Detector.C162_stored",
    "Verif.Detector.C162_cloud",
    "Verif.Detector.C162_write",
    "Verif.Detector.C162_run",
    "Verif.Detector.C162_files"
   ],
   "note": ""
  },
  {
   "property": "C163",
   "status": "proved",
   "theorems": [
    "Verif.Detector.C163_response",
    "Verif.Detector.C163_cloud",
    "Verif.Detector.C163_stored",
    "Verif.Detector.C163_write",
    "Verif.Detector.C163_run"
   ],
   "note": ""
  },
  {
   "property": "C164",
   "status": "proved",
   "theorems": [
    "Verif.Props.C164_allowed",
    "Verif.Props.C164_reaction",
    "Verif.Props.C164_decay_allowed",
    "Verif.Props.C164_decay",
    "Verif.Props.C164_attempt",
    "Verif.Props.C164_sample",
    "Verif.Props.C164_run",
    "Verif.Props.C164_file"
   ],
   "note": ""
  }
 ]
}