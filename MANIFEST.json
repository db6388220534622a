{
 "claims": [
  {
   "property": "C01",
   "status": "proved",
   "theorems": [
    "TwoLayer.C01_two_layer",
    "TwoLayer.C01_impulse_response"
   ],
   "note": ""
  },
  {
   "property": "C02",
   "status": "proved",
   "theorems": [
    "TwoLayer.C02_two_layer",
    "TwoLayer.C02_impulse_response"
   ],
   "note": ""
  },
  {
   "property": "C03",
   "status": "proved",
   "theorems": [
    "TwoLayer.C03_two_layer",
    "TwoLayer.C03_impulse_response"
   ],
   "note": ""
  },
  {
   "property": "C04",
   "status": "proved",
   "theorems": [
    "TwoLayer.C04_two_layer",
    "TwoLayer.C04_impulse_response"
   ],
   "note": ""
  },
  {
   "property": "C05",
   "status": "proved",
   "theorems": [
    "TwoLayer.C05_two_layer",
    "TwoLayer.C05_impulse_response",
    "TwoLayer.C05_two_layer_step_then_run"
   ],
   "note": ""
  },
  {
   "property": "C06",
   "status": "proved",
   "theorems": [
    "TwoLayer.C06_two_layer",
    "TwoLayer.C06_impulse_response"
   ],
   "note": ""
  },
  {
   "property": "C07",
   "status": "proved",
   "theorems": [
    "TwoLayer.C07_two_layer",
    "TwoLayer.C07_impulse_response"
   ],
   "note": ""
  },
  {
   "property": "C08",
   "status": "proved",
   "theorems": [
    "TwoLayer.C08_two_layer",
    "TwoLayer.C08_impulse_response"
   ],
   "note": ""
  },
  {
   "property": "C09",
   "status": "proved",
   "theorems": [
    "TwoLayer.C09_two_layer",
    "TwoLayer.C09_two_layer_fresh",
    "TwoLayer.C09_impulse_response"
   ],
   "note": ""
  },
  {
   "property": "C10",
   "status": "proved",
   "theorems": [
    "TwoLayer.C10_two_layer",
    "TwoLayer.C10_impulse_response"
   ],
   "note": ""
  },
  {
   "property": "C11",
   "status": "proved",
   "theorems": [
    "TwoLayer.C11_two_layer",
    "TwoLayer.C11_impulse_response"
   ],
   "note": ""
  },
  {
   "property": "C12",
   "status": "proved",
   "theorems": [
    "TwoLayer.C12_two_layer",
    "TwoLayer.C12_two_layer_iff",
    "TwoLayer.C12_impulse_response",
    "TwoLayer.C12_impulse_response_iff",
    "TwoLayer.C12_impulse_response_refuses"
   ],
   "note": ""
  },
  {
   "property": "C13",
   "status": "partial",
   "theorems": [
    "TwoLayer.C13_partial",
    "TwoLayer.C13_years_partial",
    "TwoLayer.C13_counterexample",
    "TwoLayer.C13_step"
   ],
   "note": "The full statement is false of the code (C13_counterexample: assigning d1 or d2 afterwards is not checked); proved for construction and for all histories that do not assign d1 or d2; C13_step says exactly which calls change the two timescales, and how."
  },
  {
   "property": "C14",
   "status": "proved",
   "theorems": [
    "TwoLayer.C14_two_layer",
    "TwoLayer.C14_impulse_response"
   ],
   "note": ""
  },
  {
   "property": "C15",
   "status": "proved",
   "theorems": [
    "TwoLayer.C15_two_layer",
    "TwoLayer.C15_two_layer_exists_unique",
    "TwoLayer.C15_two_layer_numbers"
   ],
   "note": ""
  },
  {
   "property": "C16",
   "status": "proved",
   "theorems": [
    "TwoLayer.C16_two_layer"
   ],
   "note": ""
  },
  {
   "property": "C17",
   "status": "proved",
   "theorems": [
    "TwoLayer.C17_two_layer"
   ],
   "note": ""
  },
  {
   "property": "C18",
   "status": "proved",
   "theorems": [
    "TwoLayer.C18_two_layer"
   ],
   "note": ""
  },
  {
   "property": "C19",
   "status": "proved",
   "theorems": [
    "TwoLayer.C19_impulse_response",
    "TwoLayer.C19_two_layer"
   ],
   "note": ""
  },
  {
   "property": "C20",
   "status": "proved",
   "theorems": [
    "TwoLayer.C20_impulse_response",
    "TwoLayer.C20_two_layer"
   ],
   "note": ""
  },
  {
   "property": "C21",
   "status": "proved",
   "theorems": [
    "TwoLayer.C21_two_layer",
    "TwoLayer.C21_resolved",
    "TwoLayer.C21_steady"
   ],
   "note": ""
  },
  {
   "property": "C22",
   "status": "proved",
   "theorems": [
    "TwoLayer.C22_two_layer",
    "TwoLayer.C22_two_layer_abs"
   ],
   "note": ""
  },
  {
   "property": "C23",
   "status": "proved",
   "theorems": [
    "TwoLayer.C23_impulse_response",
    "TwoLayer.C23_two_layer"
   ],
   "note": ""
  },
  {
   "property": "C24",
   "status": "proved",
   "theorems": [
    "TwoLayer.C24_two_layer",
    "TwoLayer.C24_two_layer_independent"
   ],
   "note": ""
  },
  {
   "property": "C25",
   "status": "proved",
   "theorems": [
    "TwoLayer.C25_two_layer"
   ],
   "note": ""
  },
  {
   "property": "C26",
   "status": "proved",
   "theorems": [
    "TwoLayer.C26_amplifies",
    "TwoLayer.C26_runaway",
    "TwoLayer.C26_no_steady_state"
   ],
   "note": ""
  },
  {
   "property": "C27",
   "status": "proved",
   "theorems": [
    "TwoLayer.C27_two_layer",
    "TwoLayer.C27_annual_step"
   ],
   "note": ""
  },
  {
   "property": "C28",
   "status": "proved",
   "theorems": [
    "TwoLayer.C28_impulse_response",
    "TwoLayer.C28_solution_exists"
   ],
   "note": ""
  },
  {
   "property": "C29",
   "status": "proved",
   "theorems": [
    "TwoLayer.C29_impulse_response"
   ],
   "note": ""
  },
  {
   "property": "C30",
   "status": "proved",
   "theorems": [
    "TwoLayer.C30_impulse_response"
   ],
   "note": ""
  },
  {
   "property": "C31",
   "status": "proved",
   "theorems": [
    "TwoLayer.C31_bounded",
    "TwoLayer.C31_constant",
    "TwoLayer.C31_equilibrium"
   ],
   "note": ""
  },
  {
   "property": "C32",
   "status": "proved",
   "theorems": [
    "TwoLayer.C32_impulse_response",
    "TwoLayer.C32_two_layer"
   ],
   "note": ""
  },
  {
   "property": "C33",
   "status": "proved",
   "theorems": [
    "TwoLayer.C33_two_layer",
    "TwoLayer.C33_impulse_response"
   ],
   "note": ""
  },
  {
   "property": "C34",
   "status": "proved",
   "theorems": [
    "TwoLayer.C34_impulse_response"
   ],
   "note": ""
  },
  {
   "property": "C35",
   "status": "proved",
   "theorems": [
    "TwoLayer.C35_helper",
    "TwoLayer.C35_conversion"
   ],
   "note": ""
  },
  {
   "property": "C36",
   "status": "proved",
   "theorems": [
    "TwoLayer.C36_usable",
    "TwoLayer.C36_values",
    "TwoLayer.C36_eta_zero",
    "TwoLayer.C36_refuses",
    "TwoLayer.C36_refuses_value"
   ],
   "note": ""
  },
  {
   "property": "C37",
   "status": "proved",
   "theorems": [
    "TwoLayer.C37_usable",
    "TwoLayer.C37_values"
   ],
   "note": ""
  },
  {
   "property": "C38",
   "status": "proved",
   "theorems": [
    "TwoLayer.C38_round_trip"
   ],
   "note": ""
  },
  {
   "property": "C39",
   "status": "proved",
   "theorems": [
    "TwoLayer.C39_round_trip"
   ],
   "note": ""
  },
  {
   "property": "C40",
   "status": "proved",
   "theorems": [
    "TwoLayer.C40_boxes_solve_two_layer",
    "TwoLayer.C40_exact",
    "TwoLayer.C40_solution_exists",
    "TwoLayer.C40_euler"
   ],
   "note": ""
  },
  {
   "property": "C41",
   "status": "proved",
   "theorems": [
    "TwoLayer.C41_agree",
    "TwoLayer.C41_agree_lower"
   ],
   "note": ""
  },
  {
   "property": "C42",
   "status": "proved",
   "theorems": [
    "TwoLayer.C42_agree"
   ],
   "note": ""
  },
  {
   "property": "C43",
   "status": "proved",
   "theorems": [
    "TwoLayer.C43_two_layer"
   ],
   "note": ""
  },
  {
   "property": "C44",
   "status": "partial",
   "theorems": [
    "TwoLayer.C44_temperatures",
    "TwoLayer.C44_uptake_error",
    "TwoLayer.C44_partial",
    "TwoLayer.C44_iff",
    "TwoLayer.C44_counterexample"
   ],
   "note": "Temperatures: proved in full. Heat uptake: false of the code in general (C44_counterexample); proved for the unit choices in C44_partial; C44_iff says exactly when two descriptions of one model give the same uptake."
  },
  {
   "property": "C45",
   "status": "partial",
   "theorems": [
    "TwoLayer.C45_iff",
    "TwoLayer.C45_partial",
    "TwoLayer.C45_counterexample"
   ],
   "note": "False of the code (C45_counterexample); C45_iff says exactly when a run with efficacy other than 1 succeeds."
  },
  {
   "property": "C46",
   "status": "proved",
   "theorems": [
    "TwoLayer.C46_two_layer",
    "TwoLayer.C46_impulse_response",
    "TwoLayer.C46_incompatible"
   ],
   "note": ""
  },
  {
   "property": "C47",
   "status": "proved",
   "theorems": [
    "TwoLayer.C47_two_layer_succeeds_iff",
    "TwoLayer.C47_two_layer",
    "TwoLayer.C47_impulse_response",
    "TwoLayer.C47_impulse_response_succeeds_iff"
   ],
   "note": ""
  },
  {
   "property": "C48",
   "status": "proved",
   "theorems": [
    "TwoLayer.C48_two_layer",
    "TwoLayer.C48_impulse_response",
    "TwoLayer.C48_alone_two_layer",
    "TwoLayer.C48_alone_impulse_response",
    "TwoLayer.C48_error_two_layer"
   ],
   "note": ""
  },
  {
   "property": "C49",
   "status": "proved",
   "theorems": [
    "TwoLayer.C49_selection",
    "TwoLayer.C49_only_selected",
    "TwoLayer.C49_none",
    "TwoLayer.C49_some_two_layer",
    "TwoLayer.C49_plain"
   ],
   "note": ""
  },
  {
   "property": "C50",
   "status": "proved",
   "theorems": [
    "TwoLayer.C50_two_layer",
    "TwoLayer.C50_impulse_response"
   ],
   "note": ""
  },
  {
   "property": "C51",
   "status": "proved",
   "theorems": [
    "TwoLayer.C51_refused",
    "TwoLayer.C51_two_layer",
    "TwoLayer.C51_impulse_response",
    "TwoLayer.C51_select",
    "TwoLayer.C51_gap_ignored",
    "TwoLayer.C51_single"
   ],
   "note": ""
  },
  {
   "property": "C52",
   "status": "partial",
   "theorems": [
    "TwoLayer.C52_calendar",
    "TwoLayer.C52_yearly",
    "TwoLayer.C52_partial",
    "TwoLayer.C52_two_points",
    "TwoLayer.C52_counterexample"
   ],
   "note": "False of the code for a two-point December-January axis, which gets a step of one year (C52_counterexample); proved for yearly axes, for month axes of three or more points at any offset (C52_partial) and for all other two-point month axes (C52_two_points)."
  },
  {
   "property": "C53",
   "status": "partial",
   "theorems": [
    "TwoLayer.C53_missing_two_layer",
    "TwoLayer.C53_missing_impulse_response",
    "TwoLayer.C53_driver_two_layer",
    "TwoLayer.C53_driver_impulse_response",
    "TwoLayer.C53_partial",
    "TwoLayer.C53_impulse_response_partial",
    "TwoLayer.C53_gaps_two_layer",
    "TwoLayer.C53_gaps_impulse_response",
    "TwoLayer.C53_counterexample"
   ],
   "note": "Second half false of the code (C53_counterexample: a gap inside a driver is closed up); proved for drivers whose missing values are only at the ends; C53_gaps_two_layer and C53_gaps_impulse_response say exactly when the steps a run takes between two values equal their distance on the axis."
  },
  {
   "property": "C54",
   "status": "proved",
   "theorems": [
    "TwoLayer.C54_two_layer",
    "TwoLayer.C54_impulse_response"
   ],
   "note": ""
  },
  {
   "property": "C55",
   "status": "proved",
   "theorems": [
    "TwoLayer.C55_two_layer",
    "TwoLayer.C55_impulse_response"
   ],
   "note": ""
  },
  {
   "property": "C56",
   "status": "proved",
   "theorems": [
    "TwoLayer.C56_two_layer",
    "TwoLayer.C56_impulse_response",
    "TwoLayer.C56_output_name_two_layer",
    "TwoLayer.C56_output_name_impulse_response",
    "TwoLayer.C56_distinct_two_layer",
    "TwoLayer.C56_distinct_impulse_response"
   ],
   "note": ""
  },
  {
   "property": "C57",
   "status": "proved",
   "theorems": [
    "TwoLayer.C57_type_errors",
    "TwoLayer.C57_value",
    "TwoLayer.C57_zero",
    "TwoLayer.C57_inverse",
    "TwoLayer.C57_two_layer",
    "TwoLayer.C57_impulse_response",
    "TwoLayer.C57_sign",
    "TwoLayer.C57_default"
   ],
   "note": ""
  },
  {
   "property": "C58",
   "status": "proved",
   "theorems": [
    "TwoLayer.Version.C58_tagged",
    "TwoLayer.Version.C58_release",
    "TwoLayer.Version.C58_untagged",
    "TwoLayer.Version.C58_bare_prefix",
    "TwoLayer.Version.C58_other_tag",
    "TwoLayer.Version.C58_unparseable"
   ],
   "note": ""
  },
  {
   "property": "C59",
   "status": "proved",
   "theorems": [
    "TwoLayer.Version.C59_tagged",
    "TwoLayer.Version.C59_other_prefix",
    "TwoLayer.Version.C59_untagged",
    "TwoLayer.Version.C59_sound"
   ],
   "note": ""
  },
  {
   "property": "C60",
   "status": "proved",
   "theorems": [
    "TwoLayer.C60_two_layer",
    "TwoLayer.C60_impulse_response"
   ],
   "note": ""
  },
  {
   "property": "C61",
   "status": "proved",
   "theorems": [
    "TwoLayer.Version.C61_versions_distinct",
    "TwoLayer.Version.C61_same_tag"
   ],
   "note": ""
  },
  {
   "property": "C62",
   "status": "proved",
   "theorems": [
    "TwoLayer.Version.C62_describe_long",
    "TwoLayer.Version.C62_describe",
    "TwoLayer.Version.C62_pep440_styles",
    "TwoLayer.Version.C62_untagged",
    "TwoLayer.Version.C62_styles"
   ],
   "note": ""
  },
  {
   "property": "C63",
   "status": "proved",
   "theorems": [
    "TwoLayer.Version.C63_keywords",
    "TwoLayer.Version.C63_no_tag",
    "TwoLayer.Version.C63_order"
   ],
   "note": ""
  },
  {
   "property": "C64",
   "status": "proved",
   "theorems": [
    "TwoLayer.Version.C64_keywords_first",
    "TwoLayer.Version.C64_no_file",
    "TwoLayer.Version.C64_raises_only",
    "TwoLayer.Version.C64_git_fails",
    "TwoLayer.Version.C64_show_fails"
   ],
   "note": ""
  },
  {
   "property": "C65",
   "status": "proved",
   "theorems": [
    "TwoLayer.Version.C65_parentdir",
    "TwoLayer.Version.C65_no_parentdir"
   ],
   "note": ""
  },
  {
   "property": "C66",
   "status": "proved",
   "theorems": [
    "TwoLayer.C66_two_layer",
    "TwoLayer.C66_two_layer_lipschitz",
    "TwoLayer.C66_impulse_response"
   ],
   "note": ""
  },
  {
   "property": "C67",
   "status": "proved",
   "theorems": [
    "TwoLayer.C67_two_layer",
    "TwoLayer.C67_impulse_response",
    "TwoLayer.C67_impulse_response_uptake",
    "TwoLayer.C67_default",
    "TwoLayer.C67_default_impulse_response",
    "TwoLayer.C67_impulse_response_efficacy",
    "TwoLayer.C67_default_efficacy"
   ],
   "note": ""
  },
  {
   "property": "C68",
   "status": "proved",
   "theorems": [
    "TwoLayer.C68_two_layer_shared",
    "TwoLayer.C68_two_layer_copied",
    "TwoLayer.C68_two_layer_nan",
    "TwoLayer.C68_impulse_response_shared",
    "TwoLayer.C68_impulse_response_copied",
    "TwoLayer.C68_impulse_response_nan"
   ],
   "note": ""
  },
  {
   "property": "C69",
   "status": "proved",
   "theorems": [
    "TwoLayer.C69_two_layer",
    "TwoLayer.C69_impulse_response",
    "TwoLayer.C69_always_two_layer",
    "TwoLayer.C69_always_impulse_response"
   ],
   "note": ""
  },
  {
   "property": "C70",
   "status": "proved",
   "theorems": [
    "TwoLayer.C70_two_layer",
    "TwoLayer.C70_impulse_response"
   ],
   "note": ""
  },
  {
   "property": "C71",
   "status": "proved",
   "theorems": [
    "TwoLayer.C71_two_layer",
    "TwoLayer.C71_impulse_response",
    "TwoLayer.C71_recovery"
   ],
   "note": ""
  },
  {
   "property": "C72",
   "status": "proved",
   "theorems": [
    "TwoLayer.C72_two_layer",
    "TwoLayer.C72_impulse_response"
   ],
   "note": ""
  },
  {
   "property": "C73",
   "status": "proved",
   "theorems": [
    "TwoLayer.C73_two_layer",
    "TwoLayer.C73_impulse_response"
   ],
   "note": ""
  },
  {
   "property": "C74",
   "status": "proved",
   "theorems": [
    "TwoLayer.C74_two_layer"
   ],
   "note": ""
  },
  {
   "property": "C75",
   "status": "proved",
   "theorems": [
    "TwoLayer.C75_two_layer"
   ],
   "note": ""
  },
  {
   "property": "C76",
   "status": "proved",
   "theorems": [
    "TwoLayer.C76_two_layer",
    "TwoLayer.C76_impulse_response"
   ],
   "note": ""
  },
  {
   "property": "C77",
   "status": "proved",
   "theorems": [
    "TwoLayer.C77_two_layer",
    "TwoLayer.C77_impulse_response"
   ],
   "note": ""
  },
  {
   "property": "C78",
   "status": "proved",
   "theorems": [
    "TwoLayer.Version.C78_setup_agrees",
    "TwoLayer.Version.C78_unreadable"
   ],
   "note": ""
  },
  {
   "property": "C79",
   "status": "proved",
   "theorems": [
    "TwoLayer.Version.C79_frozen",
    "TwoLayer.Version.C79_entries",
    "TwoLayer.Version.C79_file_injective"
   ],
   "note": ""
  },
  {
   "property": "C80",
   "status": "partial",
   "theorems": [
    "TwoLayer.Version.C80_import_partial",
    "TwoLayer.Version.C80_iff",
    "TwoLayer.Version.C80_quote"
   ],
   "note": "False of the code for versions containing a double quote, backslash or control character (C80_iff, C80_quote); proved for texts of characters U+0020 to U+FFFF without those and without three apostrophes in a row."
  },
  {
   "property": "C81",
   "status": "proved",
   "theorems": [
    "TwoLayer.Version.C81_release_chain"
   ],
   "note": ""
  },
  {
   "property": "C82",
   "status": "proved",
   "theorems": [
    "TwoLayer.Version.C82_section",
    "TwoLayer.Version.C82_no_section",
    "TwoLayer.Version.C82_never_raises"
   ],
   "note": ""
  },
  {
   "property": "C83",
   "status": "proved",
   "theorems": [
    "TwoLayer.Version.C83_requirements"
   ],
   "note": ""
  },
  {
   "property": "C84",
   "status": "proved",
   "theorems": [
    "TwoLayer.C84_two_layer",
    "TwoLayer.C84_impulse_response"
   ],
   "note": ""
  },
  {
   "property": "C85",
   "status": "proved",
   "theorems": [
    "TwoLayer.C85_two_layer",
    "TwoLayer.C85_impulse_response"
   ],
   "note": ""
  },
  {
   "property": "C86",
   "status": "proved",
   "theorems": [
    "TwoLayer.C86_two_layer",
    "TwoLayer.C86_impulse_response"
   ],
   "note": ""
  },
  {
   "property": "C87",
   "status": "proved",
   "theorems": [
    "TwoLayer.C87_two_layer"
   ],
   "note": ""
  },
  {
   "property": "C88",
   "status": "proved",
   "theorems": [
    "TwoLayer.C88_two_layer",
    "TwoLayer.C88_impulse_response",
    "TwoLayer.C88_default"
   ],
   "note": ""
  },
  {
   "property": "C89",
   "status": "proved",
   "theorems": [
    "TwoLayer.C89_bounded",
    "TwoLayer.C89_two_sided",
    "TwoLayer.C89_settles"
   ],
   "note": ""
  },
  {
   "property": "C90",
   "status": "proved",
   "theorems": [
    "TwoLayer.C90_efficacy"
   ],
   "note": ""
  },
  {
   "property": "C91",
   "status": "proved",
   "theorems": [
    "TwoLayer.C91_accuracy"
   ],
   "note": ""
  },
  {
   "property": "C92",
   "status": "proved",
   "theorems": [
    "TwoLayer.Version.C92_keeps",
    "TwoLayer.Version.C92_idempotent",
    "TwoLayer.Version.C92_third_run",
    "TwoLayer.Version.C92_needs_newline",
    "TwoLayer.Version.C92_installed",
    "TwoLayer.Version.C92_attributes_gap"
   ],
   "note": ""
  },
  {
   "property": "C93",
   "status": "proved",
   "theorems": [
    "TwoLayer.Version.C93_scan"
   ],
   "note": ""
  },
  {
   "property": "C94",
   "status": "proved",
   "theorems": [
    "TwoLayer.C94_two_layer",
    "TwoLayer.C94_impulse_response"
   ],
   "note": ""
  },
  {
   "property": "C95",
   "status": "proved",
   "theorems": [
    "TwoLayer.C95_two_layer",
    "TwoLayer.C95_drivers_two_layer",
    "TwoLayer.C95_impulse_response",
    "TwoLayer.C95_drivers_impulse_response"
   ],
   "note": ""
  },
  {
   "property": "C96",
   "status": "proved",
   "theorems": [
    "TwoLayer.C96_two_layer",
    "TwoLayer.C96_two_layer_pulse",
    "TwoLayer.C96_impulse_response"
   ],
   "note": ""
  },
  {
   "property": "C97",
   "status": "proved",
   "theorems": [
    "TwoLayer.C97_temperature",
    "TwoLayer.C97_heat_uptake",
    "TwoLayer.C97_succeeds"
   ],
   "note": ""
  },
  {
   "property": "C98",
   "status": "proved",
   "theorems": [
    "TwoLayer.C98_two_layer",
    "TwoLayer.C98_impulse_response",
    "TwoLayer.C98_same_axis"
   ],
   "note": ""
  },
  {
   "property": "C99",
   "status": "proved",
   "theorems": [
    "TwoLayer.C99_reachable_two_layer",
    "TwoLayer.C99_reachable_impulse_response",
    "TwoLayer.C99_two_layer",
    "TwoLayer.C99_impulse_response",
    "TwoLayer.C99_impulse_response_success",
    "TwoLayer.C99_shared_default",
    "TwoLayer.C99_default_objects",
    "TwoLayer.C99_defaults_separate"
   ],
   "note": ""
  },
  {
   "property": "C100",
   "status": "proved",
   "theorems": [
    "TwoLayer.C100_two_layer_wm2",
    "TwoLayer.C100_two_layer_other",
    "TwoLayer.C100_two_layer_refused",
    "TwoLayer.C100_impulse_response_wm2",
    "TwoLayer.C100_impulse_response_other",
    "TwoLayer.C100_impulse_response_refused",
    "TwoLayer.C100_factor"
   ],
   "note": ""
  },
  {
   "property": "C101",
   "status": "proved",
   "theorems": [
    "TwoLayer.C101_two_layer_parameters",
    "TwoLayer.C101_temperatures",
    "TwoLayer.C101_uptake",
    "TwoLayer.C101_equal"
   ],
   "note": ""
  },
  {
   "property": "C102",
   "status": "proved",
   "theorems": [
    "TwoLayer.C102_two_layer_parameters",
    "TwoLayer.C102_default"
   ],
   "note": ""
  },
  {
   "property": "C103",
   "status": "proved",
   "theorems": [
    "TwoLayer.C103_impulse_response_parameters",
    "TwoLayer.C103_default"
   ],
   "note": ""
  },
  {
   "property": "C104",
   "status": "proved",
   "theorems": [
    "TwoLayer.C104_limit",
    "TwoLayer.C104_limit_object",
    "TwoLayer.C104_rate",
    "TwoLayer.C104_uptake"
   ],
   "note": ""
  },
  {
   "property": "C105",
   "status": "proved",
   "theorems": [
    "TwoLayer.C105_dl",
    "TwoLayer.C105_du",
    "TwoLayer.C105_lambda0",
    "TwoLayer.C105_eta",
    "TwoLayer.C105_efficacy",
    "TwoLayer.C105_bounds"
   ],
   "note": ""
  },
  {
   "property": "C106",
   "status": "proved",
   "theorems": [
    "TwoLayer.C106_construct",
    "TwoLayer.C106_convert",
    "TwoLayer.C106_calls_two_layer",
    "TwoLayer.C106_calls_impulse_response",
    "TwoLayer.C106_histories_two_layer",
    "TwoLayer.C106_histories_impulse_response",
    "TwoLayer.C106_scenarios",
    "TwoLayer.C106_numpy_quiet"
   ],
   "note": ""
  },
  {
   "property": "C107",
   "status": "proved",
   "theorems": [
    "TwoLayer.C107_two_layer",
    "TwoLayer.C107_impulse_response",
    "TwoLayer.C107_run_two_layer",
    "TwoLayer.C107_run_impulse_response",
    "TwoLayer.C107_missing",
    "TwoLayer.C107_set_drivers"
   ],
   "note": ""
  },
  {
   "property": "C108",
   "status": "proved",
   "theorems": [
    "TwoLayer.C108_two_layer",
    "TwoLayer.C108_default"
   ],
   "note": ""
  },
  {
   "property": "C109",
   "status": "proved",
   "theorems": [
    "TwoLayer.C109_two_layer",
    "TwoLayer.C109_impulse_response",
    "TwoLayer.C109_impulse_response_uptake",
    "TwoLayer.C109_default",
    "TwoLayer.C109_default_impulse_response"
   ],
   "note": ""
  },
  {
   "property": "C110",
   "status": "proved",
   "theorems": [
    "TwoLayer.C110_impulse_response",
    "TwoLayer.C110_two_layer",
    "TwoLayer.C110_delay_two_layer",
    "TwoLayer.C110_delay_impulse_response"
   ],
   "note": ""
  },
  {
   "property": "C111",
   "status": "proved",
   "theorems": [
    "TwoLayer.C111_stronger",
    "TwoLayer.C111_warming",
    "TwoLayer.C111_cooling"
   ],
   "note": ""
  },
  {
   "property": "C112",
   "status": "proved",
   "theorems": [
    "TwoLayer.C112_impulse_response",
    "TwoLayer.C112_two_layer",
    "TwoLayer.C112_default_two_layer",
    "TwoLayer.C112_default_impulse_response"
   ],
   "note": ""
  },
  {
   "property": "C113",
   "status": "proved",
   "theorems": [
    "TwoLayer.C113_two_layer",
    "TwoLayer.C113_two_layer_infinite",
    "TwoLayer.C113_impulse_response",
    "TwoLayer.C113_impulse_response_infinite"
   ],
   "note": ""
  },
  {
   "property": "C114",
   "status": "proved",
   "theorems": [
    "TwoLayer.C114_two_layer",
    "TwoLayer.C114_two_layer_same",
    "TwoLayer.C114_impulse_response",
    "TwoLayer.C114_default",
    "TwoLayer.C114_default_impulse_response",
    "TwoLayer.C114_two_layer_state",
    "TwoLayer.C114_default_state"
   ],
   "note": ""
  },
  {
   "property": "C115",
   "status": "proved",
   "theorems": [
    "TwoLayer.C115_two_layer",
    "TwoLayer.C115_two_layer_accuracy",
    "TwoLayer.C115_impulse_response",
    "TwoLayer.C115_default",
    "TwoLayer.C115_impulse_response_accuracy"
   ],
   "note": ""
  },
  {
   "property": "C116",
   "status": "proved",
   "theorems": [
    "TwoLayer.C116_two_layer_whole",
    "TwoLayer.C116_two_layer_run",
    "TwoLayer.C116_two_layer_restart",
    "TwoLayer.C116_two_layer_scenarios",
    "TwoLayer.C116_two_layer_repair",
    "TwoLayer.C116_two_layer_setter",
    "TwoLayer.C116_two_layer_again",
    "TwoLayer.C116_two_layer_torn",
    "TwoLayer.C116_impulse_response_whole",
    "TwoLayer.C116_impulse_response_run",
    "TwoLayer.C116_impulse_response_restart",
    "TwoLayer.C116_impulse_response_scenarios",
    "TwoLayer.C116_impulse_response_repair",
    "TwoLayer.C116_impulse_response_setter",
    "TwoLayer.C116_impulse_response_again",
    "TwoLayer.C116_impulse_response_torn",
    "TwoLayer.C116_impulse_response_mixed"
   ],
   "note": ""
  },
  {
   "property": "C117",
   "status": "proved",
   "theorems": [
    "TwoLayer.C117_separate",
    "TwoLayer.C117_two_layer_shared",
    "TwoLayer.C117_two_layer_scenarios",
    "TwoLayer.C117_two_layer_repair",
    "TwoLayer.C117_two_layer_lost",
    "TwoLayer.C117_impulse_response_shared",
    "TwoLayer.C117_impulse_response_scenarios",
    "TwoLayer.C117_impulse_response_repair",
    "TwoLayer.C117_impulse_response_lost"
   ],
   "note": ""
  },
  {
   "property": "C118",
   "status": "proved",
   "theorems": [
    "TwoLayer.C118_two_layer_deep",
    "TwoLayer.C118_two_layer_inputs",
    "TwoLayer.C118_two_layer_reset",
    "TwoLayer.C118_two_layer_simulate",
    "TwoLayer.C118_two_layer_shared",
    "TwoLayer.C118_two_layer_counterexample",
    "TwoLayer.C118_impulse_response_deep",
    "TwoLayer.C118_impulse_response_inputs",
    "TwoLayer.C118_impulse_response_reset",
    "TwoLayer.C118_impulse_response_simulate",
    "TwoLayer.C118_impulse_response_shared",
    "TwoLayer.C118_impulse_response_counterexample"
   ],
   "note": ""
  },
  {
   "property": "C119",
   "status": "proved",
   "theorems": [
    "TwoLayer.Version.C119_sources",
    "TwoLayer.Version.C119_tree",
    "TwoLayer.Version.C119_missing",
    "TwoLayer.Version.C119_again",
    "TwoLayer.Version.C119_chain"
   ],
   "note": ""
  },
  {
   "property": "C120",
   "status": "proved",
   "theorems": [
    "TwoLayer.Version.C120_repository",
    "TwoLayer.Version.C120_paths",
    "TwoLayer.Version.C120_sections",
    "TwoLayer.Version.C120_setup_when",
    "TwoLayer.Version.C120_setup_keeps",
    "TwoLayer.Version.C120_setup_again",
    "TwoLayer.Version.C120_written"
   ],
   "note": ""
  },
  {
   "property": "C121",
   "status": "proved",
   "theorems": [
    "TwoLayer.C121_progress",
    "TwoLayer.C121_two_layer_serial",
    "TwoLayer.C121_two_layer_scenarios",
    "TwoLayer.C121_two_layer_run",
    "TwoLayer.C121_two_layer_parameters",
    "TwoLayer.C121_impulse_response_serial",
    "TwoLayer.C121_impulse_response_scenarios",
    "TwoLayer.C121_impulse_response_run",
    "TwoLayer.C121_impulse_response_parameters"
   ],
   "note": ""
  },
  {
   "property": "C122",
   "status": "proved",
   "theorems": [
    "TwoLayer.Version.C122_inside",
    "TwoLayer.Version.C122_from_elsewhere",
    "TwoLayer.Version.C122_other_project",
    "TwoLayer.Version.C122_bad_root",
    "TwoLayer.Version.C122_local",
    "TwoLayer.Version.C122_release",
    "TwoLayer.Version.C122_settings",
    "TwoLayer.Version.C122_sdist"
   ],
   "note": ""
  }
 ]
}