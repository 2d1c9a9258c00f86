{
 "claims": [
  {
   "property": "C01",
   "status": "proved",
   "theorems": [
    "Verif.Props.C01_feet_m",
    "Verif.Props.C01_feet2_m2",
    "Verif.Props.C01_m_km",
    "Verif.Props.C01_c_k",
    "Verif.Props.C01_c_r",
    "Verif.Props.C01_k_r",
    "Verif.Props.C01_pa_mbar",
    "Verif.Props.C01_inhg_mbar",
    "Verif.Props.C01_mbar_lbfft2",
    "Verif.Props.C01_kg_n",
    "Verif.Props.C01_lbs_kg",
    "Verif.Props.C01_lbf_n",
    "Verif.Props.C01_kw_hp",
    "Verif.Props.C01_kgm3_sft3",
    "Verif.Props.C01_pa_lbfft2"
   ],
   "note": "all pairs, both directions"
  },
  {
   "property": "C02",
   "status": "proved",
   "theorems": [
    "Verif.Props.C02_paths",
    "Verif.Props.C02_all_chains",
    "Verif.Props.C02_strictMono",
    "Verif.Props.C02_fahrenheit"
   ],
   "note": ""
  },
  {
   "property": "C03",
   "status": "proved",
   "theorems": [
    "Verif.Props.C03_drift",
    "Verif.Props.C03_inverse_violated"
   ],
   "note": "exact inverse refuted (C03_inverse_violated); the drift law is proved in full"
  },
  {
   "property": "C04",
   "status": "proved",
   "theorems": [
    "Verif.Props.C04_lbfft2_routes",
    "Verif.Props.C04_kgm2_roundtrip"
   ],
   "note": "exactness refuted, tolerance proved"
  },
  {
   "property": "C05",
   "status": "proved",
   "theorems": [
    "Verif.Props.C05_inverse",
    "Verif.Props.C05_same_dynamic_pressure",
    "Verif.Props.C05_order"
   ],
   "note": ""
  },
  {
   "property": "C06",
   "status": "proved",
   "theorems": [
    "Verif.Props.C06_inverse",
    "Verif.Props.C06_positive",
    "Verif.Props.C06_strictMono",
    "Verif.Props.C06_sea_level"
   ],
   "note": ""
  },
  {
   "property": "C07",
   "status": "proved",
   "theorems": [
    "Verif.Props.C07_inverse",
    "Verif.Props.C07_range",
    "Verif.Props.C07_below",
    "Verif.Props.C07_strictMono"
   ],
   "note": ""
  },
  {
   "property": "C08",
   "status": "proved",
   "theorems": [
    "Verif.Props.C08_reciprocal"
   ],
   "note": ""
  },
  {
   "property": "C09",
   "status": "proved",
   "theorems": [
    "Verif.Props.C09_lists",
    "Verif.Props.C09_scalar",
    "Verif.Props.C09_broadcast_speed",
    "Verif.Props.C09_scalar_direction_drops_speeds",
    "Verif.Props.C09_length_mismatch",
    "Verif.Props.C09_laws"
   ],
   "note": ""
  },
  {
   "property": "C10",
   "status": "proved",
   "theorems": [
    "Verif.Props.C10_lookup",
    "Verif.Props.C10_too_large",
    "Verif.Props.C10_succeeds",
    "Verif.Props.C10_negative_violated",
    "Verif.Props.C10_negative_unknown_violated",
    "Verif.Props.C10_custom"
   ],
   "note": "negative runway numbers are refuted separately"
  },
  {
   "property": "C11",
   "status": "proved",
   "theorems": [
    "Verif.Props.C11_temperature_profile",
    "Verif.Props.C11_lipschitz",
    "Verif.Props.C11_continuous",
    "Verif.Props.C11_bounds",
    "Verif.Props.C11_offset"
   ],
   "note": ""
  },
  {
   "property": "C12",
   "status": "proved",
   "theorems": [
    "Verif.Props.C12_positive",
    "Verif.Props.C12_decreasing_apart",
    "Verif.Props.C12_decreasing_block",
    "Verif.Props.C12_decreasing_violated",
    "Verif.Props.C12_offset",
    "Verif.Props.C12_query"
   ],
   "note": "strictly decreasing for all pairs at least 0.1 m apart and for all pairs inside the blocks below 20 km, 20-47 km, above 47 km; the unrestricted claim is refuted across 20 km and 47 km"
  },
  {
   "property": "C13",
   "status": "proved",
   "theorems": [
    "Verif.Props.C13_positive",
    "Verif.Props.C13_offset_law",
    "Verif.Props.C13_decreasing_apart",
    "Verif.Props.C13_decreasing_block",
    "Verif.Props.C13_decreasing_violated",
    "Verif.Props.C13_decreasing_cold_violated",
    "Verif.Props.C13_offset_order"
   ],
   "note": "as C12 for density; block monotonicity for every offset from -100 K, refuted at 20 km for every offset, at 47 km on the standard day and inside the first layer at -200 K; offset laws in full"
  },
  {
   "property": "C14",
   "status": "proved",
   "theorems": [
    "Verif.Props.C14_ideal_gas"
   ],
   "note": "all altitudes from -5 km upwards, all offsets with positive temperature"
  },
  {
   "property": "C15",
   "status": "proved",
   "theorems": [
    "Verif.Props.C15_exact_outside",
    "Verif.Props.C15_exact_iff",
    "Verif.Props.C15_close",
    "Verif.Props.C15_exact_violated"
   ],
   "note": "exact if and only if the altitude is outside four bands whose ends are bracketed; within 0.1 m everywhere; refuted inside the bands"
  },
  {
   "property": "C16",
   "status": "proved",
   "theorems": [
    "Verif.Props.C16_exact_outside",
    "Verif.Props.C16_exact_iff",
    "Verif.Props.C16_close",
    "Verif.Props.C16_exact_violated",
    "Verif.Props.C16_list_raises",
    "Verif.Props.C16_list_ok"
   ],
   "note": "exact if and only if the altitude is outside three bands; within 0.1 m everywhere; lists raise when an element is in 11-20 km or above 32 km"
  },
  {
   "property": "C17",
   "status": "proved",
   "theorems": [
    "Verif.Props.C17_isa_above_raises",
    "Verif.Props.C17_limited_violated",
    "Verif.Props.C17_isa_inside",
    "Verif.Props.C17_profile"
   ],
   "note": "limiting refuted for every out-of-range query"
  },
  {
   "property": "C18",
   "status": "proved",
   "theorems": [
    "Verif.Props.C18_ratio",
    "Verif.Props.C18_mach_positive_violated",
    "Verif.Props.C18_magnitude"
   ],
   "note": "positivity refuted for every negative airspeed"
  },
  {
   "property": "C19",
   "status": "proved",
   "theorems": [
    "Verif.Props.C19_inverse",
    "Verif.Props.C19_dynamic_pressure",
    "Verif.Props.C19_sea_level",
    "Verif.Props.C19_isa_eas_le_tas"
   ],
   "note": "ISA ordering for temperature offsets of -100 K and above"
  },
  {
   "property": "C20",
   "status": "proved",
   "theorems": [
    "Verif.Props.C20_cas",
    "Verif.Props.C20_isa",
    "Verif.Props.C20_high_mach_violated",
    "Verif.Props.C20_isa_high_mach_violated",
    "Verif.Props.C20_knots"
   ],
   "note": "failure above Mach 1.7 shown by witness"
  },
  {
   "property": "C21",
   "status": "proved",
   "theorems": [
    "Verif.Props.C21_static",
    "Verif.Props.C21_mono",
    "Verif.Props.C21_isentropic"
   ],
   "note": ""
  },
  {
   "property": "C22",
   "status": "proved",
   "theorems": [
    "Verif.Props.C22_branch_free",
    "Verif.Props.C22_continuous",
    "Verif.Props.C22_pressure",
    "Verif.Props.C22_le_delta",
    "Verif.Props.C22_throttle",
    "Verif.Props.C22_unknown_type"
   ],
   "note": ""
  },
  {
   "property": "C23",
   "status": "proved",
   "theorems": [
    "Verif.Props.C23_turbojet_branch_free",
    "Verif.Props.C23_turbojet_continuous",
    "Verif.Props.C23_turboprop_low_mach",
    "Verif.Props.C23_turboprop_below_break",
    "Verif.Props.C23_turboprop_unbounded",
    "Verif.Props.C23_turboprop_above_break"
   ],
   "note": ""
  },
  {
   "property": "C24",
   "status": "proved",
   "theorems": [
    "Verif.Props.C24_piston"
   ],
   "note": ""
  },
  {
   "property": "C25",
   "status": "proved",
   "theorems": [
    "Verif.Props.C25_density_profile",
    "Verif.Props.C25_pressure_profile",
    "Verif.Props.C25_complete",
    "Verif.Props.C25_order",
    "Verif.Props.C25_interpolation",
    "Verif.Props.C25_query"
   ],
   "note": ""
  },
  {
   "property": "C26",
   "status": "proved",
   "theorems": [
    "Verif.Props.C26_defect_sign"
   ],
   "note": ""
  },
  {
   "property": "C27",
   "status": "proved",
   "theorems": [
    "Verif.Props.C27_tables",
    "Verif.Props.C27_query",
    "Verif.Props.C27_tables_violated",
    "Verif.Props.C27_missing"
   ],
   "note": "the announced positivity and ordering is refuted for exactly the named profiles and proved for all others"
  },
  {
   "property": "C28",
   "status": "proved",
   "theorems": [
    "Verif.Props.C28_ends",
    "Verif.Props.C28_between",
    "Verif.Props.C28_monotone",
    "Verif.Props.C28_continuous",
    "Verif.Props.C28_zero_duration"
   ],
   "note": ""
  },
  {
   "property": "C29",
   "status": "proved",
   "theorems": [
    "Verif.Props.C29_isometry",
    "Verif.Props.C29_list",
    "Verif.Props.C29_short",
    "Verif.Props.C29_compose",
    "Verif.Props.C29_inverse"
   ],
   "note": ""
  },
  {
   "property": "C30",
   "status": "proved",
   "theorems": [
    "Verif.Props.C30_window",
    "Verif.Props.C30_split"
   ],
   "note": ""
  },
  {
   "property": "C31",
   "status": "proved",
   "theorems": [
    "Verif.Props.C31_equals",
    "Verif.Props.C31_plain",
    "Verif.Props.C31_mixed_violated",
    "Verif.Props.C31_none_empty"
   ],
   "note": "includes the loss of characters with mixed line endings"
  },
  {
   "property": "C32",
   "status": "proved",
   "theorems": [
    "Verif.Props.C32_brief",
    "Verif.Props.C32_design",
    "Verif.Props.C32_performance",
    "Verif.Props.C32_present",
    "Verif.Props.C32_weightfractions",
    "Verif.Props.C32_attributes",
    "Verif.Props.C32_all_defaults",
    "Verif.Props.C32_documented"
   ],
   "note": ""
  },
  {
   "property": "C33",
   "status": "proved",
   "theorems": [
    "Verif.Props.C33_idempotent"
   ],
   "note": ""
  },
  {
   "property": "C34",
   "status": "proved",
   "theorems": [
    "Verif.Props.C34_filled_violated",
    "Verif.Props.C34_unchanged_iff",
    "Verif.Props.C34_empty",
    "Verif.Props.C34_ranges_violated",
    "Verif.Props.C34_design_ranges_violated"
   ],
   "note": ""
  },
  {
   "property": "C35",
   "status": "proved",
   "theorems": [
    "Verif.Props.C35_outcome",
    "Verif.Props.C35_brief",
    "Verif.Props.C35_design",
    "Verif.Props.C35_performance",
    "Verif.Props.C35_mean_between"
   ],
   "note": ""
  },
  {
   "property": "C36",
   "status": "proved",
   "theorems": [
    "Verif.Props.C36_sweeps",
    "Verif.Props.C36_attributes",
    "Verif.Props.C36_quarter_chord",
    "Verif.Props.C36_quarter_chord_violated",
    "Verif.Props.C36_taper",
    "Verif.Props.C36_taper_shape",
    "Verif.Props.C36_list_sweep"
   ],
   "note": ""
  },
  {
   "property": "C37",
   "status": "proved",
   "theorems": [
    "Verif.Props.C37_values",
    "Verif.Props.C37_count"
   ],
   "note": ""
  },
  {
   "property": "C38",
   "status": "proved",
   "theorems": [
    "Verif.Props.C38_total",
    "Verif.Props.C38_function",
    "Verif.Props.C38_correction",
    "Verif.Props.C38_refused"
   ],
   "note": ""
  },
  {
   "property": "C39",
   "status": "proved",
   "theorems": [
    "Verif.Props.C39_mean",
    "Verif.Props.C39_default",
    "Verif.Props.C39_digits",
    "Verif.Props.C39_negative"
   ],
   "note": ""
  },
  {
   "property": "C40",
   "status": "proved",
   "theorems": [
    "Verif.Props.C40_second",
    "Verif.Props.C40_second_sweep",
    "Verif.Props.C40_fourth",
    "Verif.Props.C40_factor"
   ],
   "note": ""
  },
  {
   "property": "C41",
   "status": "proved",
   "theorems": [
    "Verif.Props.C41_line",
    "Verif.Props.C41_points",
    "Verif.Props.C41_outside"
   ],
   "note": ""
  },
  {
   "property": "C42",
   "status": "proved",
   "theorems": [
    "Verif.Props.C42_bound",
    "Verif.Props.C42_bucket",
    "Verif.Props.C42_constant"
   ],
   "note": ""
  },
  {
   "property": "C43",
   "status": "proved",
   "theorems": [
    "Verif.Props.C43_decomposition",
    "Verif.Props.C43_increasing"
   ],
   "note": ""
  },
  {
   "property": "C44",
   "status": "proved",
   "theorems": [
    "Verif.Props.C44_climb",
    "Verif.Props.C44_cruise",
    "Verif.Props.C44_ceiling",
    "Verif.Props.C44_turn",
    "Verif.Props.C44_climb_violated"
   ],
   "note": ""
  },
  {
   "property": "C45",
   "status": "proved",
   "theorems": [
    "Verif.Props.C45_fraction_violated",
    "Verif.Props.C45_requirement_violated",
    "Verif.Props.C45_level"
   ],
   "note": ""
  },
  {
   "property": "C46",
   "status": "proved",
   "theorems": [
    "Verif.Props.C46_marking",
    "Verif.Props.C46_downward",
    "Verif.Props.C46_unspecified"
   ],
   "note": ""
  },
  {
   "property": "C47",
   "status": "proved",
   "theorems": [
    "Verif.Props.C47_thrust",
    "Verif.Props.C47_power",
    "Verif.Props.C47_entries"
   ],
   "note": ""
  },
  {
   "property": "C48",
   "status": "proved",
   "theorems": [
    "Verif.Props.C48_single",
    "Verif.Props.C48_missing",
    "Verif.Props.C48_never",
    "Verif.Props.C48_single_given",
    "Verif.Props.C48_given"
   ],
   "note": ""
  },
  {
   "property": "C49",
   "status": "proved",
   "theorems": [
    "Verif.Props.C49_speeds",
    "Verif.Props.C49_static",
    "Verif.Props.C49_wingloading",
    "Verif.Props.C49_groundrun",
    "Verif.Props.C49_density"
   ],
   "note": ""
  },
  {
   "property": "C50",
   "status": "proved",
   "theorems": [
    "Verif.Props.C50_delivers",
    "Verif.Props.C50_recover"
   ],
   "note": ""
  },
  {
   "property": "C51",
   "status": "proved",
   "theorems": [
    "Verif.Props.C51_mapping_violated"
   ],
   "note": ""
  },
  {
   "property": "C52",
   "status": "proved",
   "theorems": [
    "Verif.Props.C52_inverse",
    "Verif.Props.C52_area",
    "Verif.Props.C52_array_violated",
    "Verif.Props.C52_takeoff"
   ],
   "note": ""
  },
  {
   "property": "C53",
   "status": "proved",
   "theorems": [
    "Verif.Props.C53_range",
    "Verif.Props.C53_increasing",
    "Verif.Props.C53_high",
    "Verif.Props.C53_default"
   ],
   "note": ""
  },
  {
   "property": "C54",
   "status": "proved",
   "theorems": [
    "Verif.Props.C54_extremes",
    "Verif.Props.C54_ranged",
    "Verif.Props.C54_shares",
    "Verif.Props.C54_nominal",
    "Verif.Props.C54_nominal_given",
    "Verif.Props.C54_recorded_violated",
    "Verif.Props.C54_nominal_violated"
   ],
   "note": ""
  },
  {
   "property": "C55",
   "status": "proved",
   "theorems": [
    "Verif.Props.C55_normal",
    "Verif.Props.C55_range",
    "Verif.Props.C55_falls",
    "Verif.Props.C55_plateau",
    "Verif.Props.C55_negative_violated",
    "Verif.Props.C55_missing"
   ],
   "note": ""
  },
  {
   "property": "C56",
   "status": "proved",
   "theorems": [
    "Verif.Props.C56_values",
    "Verif.Props.C56_shape",
    "Verif.Props.C56_order"
   ],
   "note": ""
  },
  {
   "property": "C57",
   "status": "proved",
   "theorems": [
    "Verif.Props.C57_formula",
    "Verif.Props.C57_alleviation",
    "Verif.Props.C57_increment",
    "Verif.Props.C57_heavier"
   ],
   "note": ""
  },
  {
   "property": "C58",
   "status": "proved",
   "theorems": [
    "Verif.Props.C58_speeds"
   ],
   "note": ""
  },
  {
   "property": "C59",
   "status": "proved",
   "theorems": [
    "Verif.Props.C59_A",
    "Verif.Props.C59_G",
    "Verif.Props.C59_stall",
    "Verif.Props.C59_B"
   ],
   "note": ""
  },
  {
   "property": "C60",
   "status": "proved",
   "theorems": [
    "Verif.Props.C60_order"
   ],
   "note": ""
  },
  {
   "property": "C61",
   "status": "proved",
   "theorems": [
    "Verif.Props.C61_dropped_violated",
    "Verif.Props.C61_filled",
    "Verif.Props.C61_cruise"
   ],
   "note": ""
  },
  {
   "property": "C62",
   "status": "proved",
   "theorems": [
    "Verif.Propulsion.C62_unknown_violated",
    "Verif.Propulsion.C62_check_violated"
   ],
   "note": ""
  },
  {
   "property": "C63",
   "status": "proved",
   "theorems": [
    "Verif.Propulsion.C63_order",
    "Verif.Propulsion.C63_piston_violated",
    "Verif.Propulsion.C63_io540_violated"
   ],
   "note": ""
  },
  {
   "property": "C64",
   "status": "proved",
   "theorems": [
    "Verif.Propulsion.C64_half_violated",
    "Verif.Propulsion.C64_arrays_violated",
    "Verif.Propulsion.C64_map"
   ],
   "note": ""
  },
  {
   "property": "C65",
   "status": "proved",
   "theorems": [
    "Verif.Propulsion.C65_range",
    "Verif.Propulsion.C65_rejects",
    "Verif.Propulsion.C65_built",
    "Verif.Propulsion.C65_built_takeoff",
    "Verif.Propulsion.C65_absent"
   ],
   "note": ""
  },
  {
   "property": "C66",
   "status": "proved",
   "theorems": [
    "Verif.Propulsion.C66_unknown",
    "Verif.Propulsion.C66_known",
    "Verif.Propulsion.C66_returns"
   ],
   "note": ""
  },
  {
   "property": "C67",
   "status": "proved",
   "theorems": [
    "Verif.Propulsion.C67_generic"
   ],
   "note": ""
  },
  {
   "property": "C68",
   "status": "proved",
   "theorems": [
    "Verif.Propulsion.C68_ends",
    "Verif.Propulsion.C68_result",
    "Verif.Propulsion.C68_rounding",
    "Verif.Propulsion.C68_defaults",
    "Verif.Propulsion.C68_accuracy",
    "Verif.Propulsion.C68_history"
   ],
   "note": ""
  },
  {
   "property": "C69",
   "status": "proved",
   "theorems": [
    "Verif.Props.C69_minimises"
   ],
   "note": ""
  },
  {
   "property": "C70",
   "status": "proved",
   "theorems": [
    "Verif.Props.C70_radius",
    "Verif.Props.C70_bank",
    "Verif.Props.C70_speed"
   ],
   "note": ""
  },
  {
   "property": "C71",
   "status": "proved",
   "theorems": [
    "Verif.Props.C71_weights",
    "Verif.Props.C71_estimates",
    "Verif.Props.C71_ranges"
   ],
   "note": ""
  },
  {
   "property": "C72",
   "status": "proved",
   "theorems": [
    "Verif.Props.C72_sub0",
    "Verif.Props.C72_sub3",
    "Verif.Props.C72_sub4",
    "Verif.Props.C72_sub5",
    "Verif.Props.C72_sub6",
    "Verif.Props.C72_sub7",
    "Verif.Props.C72_sub8",
    "Verif.Props.C72_subsonic",
    "Verif.Props.C72_sup2",
    "Verif.Props.C72_supersonic",
    "Verif.Props.C72_supersonic_bound",
    "Verif.Props.C72_method"
   ],
   "note": ""
  },
  {
   "property": "C73",
   "status": "proved",
   "theorems": [
    "Verif.Props.C73_subsonic",
    "Verif.Props.C73_supersonic",
    "Verif.Props.C73_between",
    "Verif.Props.C73_used"
   ],
   "note": ""
  },
  {
   "property": "C74",
   "status": "proved",
   "theorems": [
    "Verif.Props.C74_chords",
    "Verif.Props.C74_definition"
   ],
   "note": ""
  },
  {
   "property": "C75",
   "status": "proved",
   "theorems": [
    "Verif.Props.C75_supports",
    "Verif.Props.C75_succeeds",
    "Verif.Props.C75_root",
    "Verif.Props.C75_missing"
   ],
   "note": ""
  },
  {
   "property": "C76",
   "status": "proved",
   "theorems": [
    "Verif.Propulsion.C76_correction",
    "Verif.Propulsion.C76_largest"
   ],
   "note": ""
  },
  {
   "property": "C77",
   "status": "proved",
   "theorems": [
    "Verif.Propulsion.C77_nan_violated",
    "Verif.Propulsion.C77_speed_violated"
   ],
   "note": ""
  },
  {
   "property": "C78",
   "status": "proved",
   "theorems": [
    "Verif.Propulsion.C78_longer_violated",
    "Verif.Propulsion.C78_pointwise"
   ],
   "note": ""
  },
  {
   "property": "C79",
   "status": "proved",
   "theorems": [
    "Verif.Propulsion.C79_total_violated",
    "Verif.Propulsion.C79_plots",
    "Verif.Propulsion.C79_jet",
    "Verif.Propulsion.C79_turboprop",
    "Verif.Propulsion.C79_electric",
    "Verif.Propulsion.C79_piston",
    "Verif.Propulsion.C79_demoplot_violated",
    "Verif.Propulsion.C79_derived_violated",
    "Verif.Propulsion.C79_bsec"
   ],
   "note": ""
  },
  {
   "property": "C80",
   "status": "proved",
   "theorems": [
    "Verif.Props.C80_climb",
    "Verif.Props.C80_cruise",
    "Verif.Props.C80_ceiling",
    "Verif.Props.C80_turn",
    "Verif.Props.C80_takeoff",
    "Verif.Props.C80_combined",
    "Verif.Props.C80_power",
    "Verif.Props.C80_bestclimb"
   ],
   "note": ""
  },
  {
   "property": "C81",
   "status": "proved",
   "theorems": [
    "Verif.Props.C81_repair",
    "Verif.Props.C81_failure"
   ],
   "note": ""
  },
  {
   "property": "C82",
   "status": "proved",
   "theorems": [
    "Verif.Props.C82_factors"
   ],
   "note": ""
  },
  {
   "property": "C83",
   "status": "proved",
   "theorems": [
    "Verif.Props.C83_array_violated",
    "Verif.Props.C83_scalar"
   ],
   "note": "refuted for every list of two or more altitudes"
  },
  {
   "property": "C84",
   "status": "proved",
   "theorems": [
    "Verif.Props.C84_weight_violated",
    "Verif.Props.C84_power_proportional"
   ],
   "note": ""
  },
  {
   "property": "C85",
   "status": "proved",
   "theorems": [
    "Verif.Props.C85_succeeds",
    "Verif.Props.C85_limit"
   ],
   "note": ""
  },
  {
   "property": "C86",
   "status": "proved",
   "theorems": [
    "Verif.Props.C86_formula_violated"
   ],
   "note": ""
  },
  {
   "property": "C87",
   "status": "proved",
   "theorems": [
    "Verif.Props.C87_corner_violated"
   ],
   "note": ""
  },
  {
   "property": "C88",
   "status": "proved",
   "theorems": [
    "Verif.Props.C88_positive",
    "Verif.Props.C88_negative"
   ],
   "note": ""
  },
  {
   "property": "C89",
   "status": "proved",
   "theorems": [
    "Verif.Propulsion.C89_mixed_violated",
    "Verif.Propulsion.C89_others"
   ],
   "note": ""
  },
  {
   "property": "C90",
   "status": "proved",
   "theorems": [
    "Verif.Propulsion.C90_reference_violated",
    "Verif.Propulsion.C90_static_largest"
   ],
   "note": ""
  },
  {
   "property": "C91",
   "status": "proved",
   "theorems": [
    "Verif.Propulsion.C91_generic_violated",
    "Verif.Propulsion.C91_given",
    "Verif.Propulsion.C91_deck_violated"
   ],
   "note": ""
  },
  {
   "property": "C92",
   "status": "proved",
   "theorems": [
    "Verif.Propulsion.C92_limit_violated",
    "Verif.Propulsion.C92_bound"
   ],
   "note": ""
  },
  {
   "property": "C93",
   "status": "proved",
   "theorems": [
    "Verif.Propulsion.C93_round",
    "Verif.Propulsion.C93_above_one_violated"
   ],
   "note": ""
  },
  {
   "property": "C94",
   "status": "proved",
   "theorems": [
    "Verif.Propulsion.C94_stale_violated"
   ],
   "note": ""
  },
  {
   "property": "C95",
   "status": "proved",
   "theorems": [
    "Verif.Propulsion.C95_fuel_flow",
    "Verif.Propulsion.C95_total_violated"
   ],
   "note": ""
  },
  {
   "property": "C96",
   "status": "proved",
   "theorems": [
    "Verif.Propulsion.C96_drag_violated",
    "Verif.Propulsion.C96_drag",
    "Verif.Propulsion.C96_profile"
   ],
   "note": ""
  },
  {
   "property": "C97",
   "status": "proved",
   "theorems": [
    "Verif.Props.C97_shaded",
    "Verif.Props.C97_front",
    "Verif.Props.C97_turn_line",
    "Verif.Props.C97_stall_line",
    "Verif.Props.C97_draws",
    "Verif.Props.C97_last_violated"
   ],
   "note": ""
  },
  {
   "property": "C98",
   "status": "proved",
   "theorems": [
    "Verif.Props.C98_masked",
    "Verif.Props.C98_completes",
    "Verif.Props.C98_infeasible_violated"
   ],
   "note": ""
  },
  {
   "property": "C99",
   "status": "proved",
   "theorems": [
    "Verif.Props.C99_limit",
    "Verif.Props.C99_inside"
   ],
   "note": ""
  },
  {
   "property": "C100",
   "status": "proved",
   "theorems": [
    "Verif.Props.C100_mean",
    "Verif.Props.C100_between",
    "Verif.Props.C100_suction_violated",
    "Verif.Props.C100_defaults"
   ],
   "note": ""
  },
  {
   "property": "C101",
   "status": "proved",
   "theorems": [
    "Verif.Props.C101_climb",
    "Verif.Props.C101_cruise",
    "Verif.Props.C101_ceiling",
    "Verif.Props.C101_shallow",
    "Verif.Props.C101_turn",
    "Verif.Props.C101_takeoff"
   ],
   "note": ""
  },
  {
   "property": "C102",
   "status": "proved",
   "theorems": [
    "Verif.Props.C102_sea_level",
    "Verif.Props.C102_hydrostatic",
    "Verif.Props.C102_column"
   ],
   "note": ""
  },
  {
   "property": "C103",
   "status": "proved",
   "theorems": [
    "Verif.Props.C103_climb",
    "Verif.Props.C103_cruise",
    "Verif.Props.C103_ceiling",
    "Verif.Props.C103_turn",
    "Verif.Props.C103_takeoff",
    "Verif.Props.C103_coupling_violated"
   ],
   "note": ""
  },
  {
   "property": "C104",
   "status": "proved",
   "theorems": [
    "Verif.Props.C104_climb",
    "Verif.Props.C104_cruise",
    "Verif.Props.C104_ceiling",
    "Verif.Props.C104_turn",
    "Verif.Props.C104_takeoff",
    "Verif.Props.C104_clmaxto"
   ],
   "note": ""
  },
  {
   "property": "C105",
   "status": "proved",
   "theorems": [
    "Verif.Props.C105_slope",
    "Verif.Props.C105_factor",
    "Verif.Props.C105_turn"
   ],
   "note": ""
  },
  {
   "property": "C106",
   "status": "proved",
   "theorems": [
    "Verif.Props.C106_takeoff",
    "Verif.Props.C106_piston"
   ],
   "note": ""
  },
  {
   "property": "C107",
   "status": "proved",
   "theorems": [
    "Verif.Props.C107_eas_tas",
    "Verif.Props.C107_altitudes",
    "Verif.Props.C107_dynamic_pressures",
    "Verif.Props.C107_dynamic_speeds",
    "Verif.Props.C107_cas",
    "Verif.Props.C107_float_violated"
   ],
   "note": ""
  },
  {
   "property": "C108",
   "status": "proved",
   "theorems": [
    "Verif.Props.C108_helmbold",
    "Verif.Props.C108_prandtl_glauert",
    "Verif.Props.C108_long",
    "Verif.Props.C108_slender"
   ],
   "note": ""
  },
  {
   "property": "C109",
   "status": "proved",
   "theorems": [
    "Verif.Props.C109_delta",
    "Verif.Props.C109_supersonic",
    "Verif.Props.C109_sonic_edge",
    "Verif.Props.C109_slender_delta",
    "Verif.Props.C109_falls",
    "Verif.Props.C109_peak",
    "Verif.Props.C109_peak_beyond",
    "Verif.Props.C109_peak_range",
    "Verif.Props.C109_peak_falls",
    "Verif.Props.C109_sonic"
   ],
   "note": ""
  },
  {
   "property": "C110",
   "status": "proved",
   "theorems": [
    "Verif.Props.C110_series",
    "Verif.Props.C110_gas",
    "Verif.Props.C110_isa"
   ],
   "note": ""
  },
  {
   "property": "C111",
   "status": "proved",
   "theorems": [
    "Verif.Props.C111_fdr",
    "Verif.Props.C111_errors",
    "Verif.Props.C111_side"
   ],
   "note": ""
  },
  {
   "property": "C112",
   "status": "proved",
   "theorems": [
    "Verif.Props.C112_gusts",
    "Verif.Props.C112_axes",
    "Verif.Props.C112_notes",
    "Verif.Props.C112_colours",
    "Verif.Props.C112_outline",
    "Verif.Props.C112_jump_violated",
    "Verif.Props.C112_stall_speeds"
   ],
   "note": ""
  },
  {
   "property": "C113",
   "status": "proved",
   "theorems": [
    "Verif.Propulsion.C113_turboprop",
    "Verif.Propulsion.C113_piston",
    "Verif.Propulsion.C113_electric",
    "Verif.Propulsion.C113_jet",
    "Verif.Propulsion.C113_blank_violated"
   ],
   "note": ""
  },
  {
   "property": "C114",
   "status": "proved",
   "theorems": [
    "Verif.Propulsion.C114_read",
    "Verif.Propulsion.C114_errors",
    "Verif.Propulsion.C114_deck"
   ],
   "note": ""
  },
  {
   "property": "C115",
   "status": "proved",
   "theorems": [
    "Verif.Propulsion.C115_printed",
    "Verif.Propulsion.C115_answers",
    "Verif.Propulsion.C115_listed",
    "Verif.Propulsion.C115_violated"
   ],
   "note": ""
  },
  {
   "property": "C116",
   "status": "proved",
   "theorems": [
    "Verif.Props.C116_arguments",
    "Verif.Props.C116_show",
    "Verif.Props.C116_titles",
    "Verif.Props.C116_layers",
    "Verif.Props.C116_filled",
    "Verif.Props.C116_curves",
    "Verif.Props.C116_charts",
    "Verif.Props.C116_single",
    "Verif.Props.C116_numpy_violated"
   ],
   "note": ""
  },
  {
   "property": "C117",
   "status": "proved",
   "theorems": [
    "Verif.Props.C117_stored",
    "Verif.Props.C117_idle_violated",
    "Verif.Props.C117_range_violated",
    "Verif.Props.C117_fraction_violated"
   ],
   "note": ""
  },
  {
   "property": "C118",
   "status": "proved",
   "theorems": [
    "Verif.Propulsion.C118_piston",
    "Verif.Propulsion.C118_piston_single",
    "Verif.Propulsion.C118_piston_rising",
    "Verif.Propulsion.C118_best_violated",
    "Verif.Propulsion.C118_sealevel_violated",
    "Verif.Propulsion.C118_others",
    "Verif.Propulsion.C118_missing",
    "Verif.Propulsion.C118_link"
   ],
   "note": ""
  },
  {
   "property": "C119",
   "status": "proved",
   "theorems": [
    "Verif.Props.C119_static",
    "Verif.Props.C119_static_violated",
    "Verif.Props.C119_highbpr",
    "Verif.Props.C119_turbojet_slow",
    "Verif.Props.C119_lowbpr_violated",
    "Verif.Props.C119_turbojet_violated",
    "Verif.Props.C119_cruise",
    "Verif.Props.C119_cruise_highbpr",
    "Verif.Props.C119_cruise_turbojet",
    "Verif.Props.C119_cruise_lowbpr_violated"
   ],
   "note": ""
  },
  {
   "property": "C120",
   "status": "proved",
   "theorems": [
    "Verif.Props.C120_static",
    "Verif.Props.C120_speed",
    "Verif.Props.C120_height",
    "Verif.Props.C120_height_violated",
    "Verif.Props.C120_outside",
    "Verif.Props.C120_isa",
    "Verif.Props.C120_cruise",
    "Verif.Props.C120_cruise_violated"
   ],
   "note": ""
  },
  {
   "property": "C121",
   "status": "proved",
   "theorems": [
    "Verif.Props.C121_cold",
    "Verif.Props.C121_empty",
    "Verif.Props.C121_noprofile",
    "Verif.Props.C121_mach",
    "Verif.Props.C121_profile",
    "Verif.Props.C121_single_violated",
    "Verif.Props.C121_runway",
    "Verif.Props.C121_category",
    "Verif.Props.C121_decks"
   ],
   "note": ""
  },
  {
   "property": "C122",
   "status": "proved",
   "theorems": [
    "Verif.Props.C122_slow",
    "Verif.Props.C122_fast",
    "Verif.Props.C122_six",
    "Verif.Props.C122_antitone",
    "Verif.Props.C122_range",
    "Verif.Props.C122_floor",
    "Verif.Props.C122_analysis"
   ],
   "note": ""
  },
  {
   "property": "C123",
   "status": "proved",
   "theorems": [
    "Verif.Props.C123_density_altitude",
    "Verif.Props.C123_hot_above",
    "Verif.Props.C123_inverse_violated",
    "Verif.Props.C123_stratosphere",
    "Verif.Props.C123_pressure_altitude",
    "Verif.Props.C123_gradient",
    "Verif.Props.C123_hydrostatic_violated"
   ],
   "note": ""
  },
  {
   "property": "C124",
   "status": "proved",
   "theorems": [
    "Verif.Props.C124_climb_drag",
    "Verif.Props.C124_cruise_drag",
    "Verif.Props.C124_ceiling_drag",
    "Verif.Props.C124_turn_drag",
    "Verif.Props.C124_groundrun",
    "Verif.Props.C124_cruise_speed_violated"
   ],
   "note": ""
  },
  {
   "property": "C125",
   "status": "proved",
   "theorems": [
    "Verif.Props.C125_atmosphere",
    "Verif.Props.C125_temperatures",
    "Verif.Props.C125_dynamic_pressure",
    "Verif.Props.C125_calibrated",
    "Verif.Props.C125_takeoff",
    "Verif.Props.C125_wind",
    "Verif.Props.C125_wig",
    "Verif.Props.C125_jet_takeoff",
    "Verif.Props.C125_jet_violated",
    "Verif.Props.C125_climb_violated",
    "Verif.Props.C125_turn_violated"
   ],
   "note": ""
  },
  {
   "property": "C126",
   "status": "proved",
   "theorems": [
    "Verif.Props.C126_lookup",
    "Verif.Props.C126_usable",
    "Verif.Props.C126_missing_violated",
    "Verif.Props.C126_denver"
   ],
   "note": ""
  },
  {
   "property": "C127",
   "status": "proved",
   "theorems": [
    "Verif.Props.C127_back",
    "Verif.Props.C127_order",
    "Verif.Props.C127_accuracy",
    "Verif.Props.C127_knots",
    "Verif.Props.C127_celsius",
    "Verif.Props.C127_rankine",
    "Verif.Props.C127_exact_violated"
   ],
   "note": ""
  },
  {
   "property": "C128",
   "status": "proved",
   "theorems": [
    "Verif.Props.C128_cruise",
    "Verif.Props.C128_ceiling",
    "Verif.Props.C128_climb",
    "Verif.Props.C128_takeoff",
    "Verif.Props.C128_turn",
    "Verif.Props.C128_feasible",
    "Verif.Props.C128_power",
    "Verif.Props.C128_wig",
    "Verif.Props.C128_airspeed"
   ],
   "note": ""
  },
  {
   "property": "C129",
   "status": "proved",
   "theorems": [
    "Verif.Props.C129_temperature",
    "Verif.Props.C129_pressure",
    "Verif.Props.C129_density",
    "Verif.Props.C129_pressalt",
    "Verif.Props.C129_cruise"
   ],
   "note": ""
  },
  {
   "property": "C130",
   "status": "proved",
   "theorems": [
    "Verif.Props.C130_geopotential",
    "Verif.Props.C130_isa",
    "Verif.Props.C130_tie_violated",
    "Verif.Props.C130_temperature64",
    "Verif.Props.C130_heathrow",
    "Verif.Props.C130_wind",
    "Verif.Props.C130_mil",
    "Verif.Props.C130_turn_violated",
    "Verif.Props.C130_climb_violated",
    "Verif.Props.C130_vstall"
   ],
   "note": ""
  },
  {
   "property": "C131",
   "status": "proved",
   "theorems": [
    "Verif.Propulsion.C131_jets",
    "Verif.Propulsion.C131_turboprops",
    "Verif.Propulsion.C131_motors",
    "Verif.Propulsion.C131_pistons",
    "Verif.Propulsion.C131_static",
    "Verif.Propulsion.C131_f404_violated",
    "Verif.Propulsion.C131_tyne_violated",
    "Verif.Propulsion.C131_rest_violated",
    "Verif.Propulsion.C131_tfe7315_violated",
    "Verif.Propulsion.C131_t56_violated",
    "Verif.Propulsion.C131_wasp_violated",
    "Verif.Propulsion.C131_io540_violated",
    "Verif.Propulsion.C131_j52_violated",
    "Verif.Propulsion.C131_jet_rows",
    "Verif.Propulsion.C131_prop_rows"
   ],
   "note": ""
  },
  {
   "property": "C132",
   "status": "proved",
   "theorems": [
    "Verif.Propulsion.C132_positive",
    "Verif.Propulsion.C132_falls",
    "Verif.Propulsion.C132_falls_violated",
    "Verif.Propulsion.C132_takeoff",
    "Verif.Propulsion.C132_rest_violated",
    "Verif.Propulsion.C132_above",
    "Verif.Propulsion.C132_table",
    "Verif.Propulsion.C132_row_violated",
    "Verif.Propulsion.C132_order_violated",
    "Verif.Propulsion.C132_docs_violated"
   ],
   "note": ""
  },
  {
   "property": "C133",
   "status": "proved",
   "theorems": [
    "Verif.Props.C133_density",
    "Verif.Props.C133_takeoff",
    "Verif.Props.C133_keas_violated",
    "Verif.Props.C133_pressure",
    "Verif.Props.C133_speeds",
    "Verif.Props.C133_cruise",
    "Verif.Props.C133_best_climb",
    "Verif.Props.C133_climb_key_violated",
    "Verif.Props.C133_stall",
    "Verif.Props.C133_thrust"
   ],
   "note": ""
  },
  {
   "property": "C134",
   "status": "proved",
   "theorems": [
    "Verif.Props.C134_conversions",
    "Verif.Props.C134_definition_violated",
    "Verif.Props.C134_definition_units",
    "Verif.Props.C134_offset",
    "Verif.Props.C134_stall",
    "Verif.Props.C134_stall_violated",
    "Verif.Props.C134_area",
    "Verif.Props.C134_envelope",
    "Verif.Props.C134_envelope_violated"
   ],
   "note": ""
  },
  {
   "property": "C135",
   "status": "proved",
   "theorems": [
    "Verif.Props.C135_climb",
    "Verif.Props.C135_cruise",
    "Verif.Props.C135_ceiling",
    "Verif.Props.C135_turn",
    "Verif.Props.C135_liftoff",
    "Verif.Props.C135_takeoff",
    "Verif.Props.C135_static",
    "Verif.Props.C135_power",
    "Verif.Props.C135_ground",
    "Verif.Props.C135_stall",
    "Verif.Props.C135_oswald1",
    "Verif.Props.C135_oswald2",
    "Verif.Props.C135_oswald3",
    "Verif.Props.C135_sub0",
    "Verif.Props.C135_sub3",
    "Verif.Props.C135_sub4",
    "Verif.Props.C135_sub5",
    "Verif.Props.C135_sub6",
    "Verif.Props.C135_sub8",
    "Verif.Props.C135_sub7",
    "Verif.Props.C135_sup3",
    "Verif.Props.C135_sup4",
    "Verif.Props.C135_subsonic",
    "Verif.Props.C135_oswald4",
    "Verif.Props.C135_induced",
    "Verif.Props.C135_bestclimb",
    "Verif.Props.C135_suction",
    "Verif.Props.C135_isapress",
    "Verif.Props.C135_isadens0",
    "Verif.Props.C135_isadens",
    "Verif.Props.C135_isapressalt",
    "Verif.Props.C135_isadensalt",
    "Verif.Props.C135_turbofan",
    "Verif.Props.C135_turboprop",
    "Verif.Props.C135_turbojet",
    "Verif.Props.C135_cruise_whole",
    "Verif.Props.C135_climb_whole",
    "Verif.Props.C135_ceiling_whole",
    "Verif.Props.C135_turn_whole",
    "Verif.Props.C135_mach",
    "Verif.Props.C135_eas2tas",
    "Verif.Props.C135_cruise_physical",
    "Verif.Props.C135_climb_physical",
    "Verif.Props.C135_ceiling_physical",
    "Verif.Props.C135_turn_physical",
    "Verif.Props.C135_piston_zero",
    "Verif.Props.C135_piston_violated",
    "Verif.Props.C135_vs",
    "Verif.Props.C135_vs_keas",
    "Verif.Props.C135_limitload",
    "Verif.Props.C135_alleviation",
    "Verif.Props.C135_gustload",
    "Verif.Props.C135_gustspeed",
    "Verif.Props.C135_chords"
   ],
   "note": ""
  },
  {
   "property": "C136",
   "status": "proved",
   "theorems": [
    "Verif.Props.C136_cruise",
    "Verif.Props.C136_climb",
    "Verif.Props.C136_ceiling",
    "Verif.Props.C136_turn",
    "Verif.Props.C136_takeoff",
    "Verif.Props.C136_combined",
    "Verif.Props.C136_static_violated",
    "Verif.Props.C136_bypass_violated",
    "Verif.Props.C136_oswald",
    "Verif.Props.C136_suction",
    "Verif.Props.C136_unswept_violated",
    "Verif.Props.C136_sonic_violated",
    "Verif.Props.C136_peak_violated",
    "Verif.Props.C136_subsonic",
    "Verif.Props.C136_liftslope",
    "Verif.Props.C136_speed"
   ],
   "note": ""
  },
  {
   "property": "C137",
   "status": "proved",
   "theorems": [
    "Verif.Props.C137_requirements",
    "Verif.Props.C137_others",
    "Verif.Props.C137_private",
    "Verif.Props.C137_study_written",
    "Verif.Props.C137_rebuild",
    "Verif.Props.C137_study_attribute",
    "Verif.Props.C137_written_violated",
    "Verif.Props.C137_attribute_violated"
   ],
   "note": ""
  },
  {
   "property": "C138",
   "status": "proved",
   "theorems": [
    "Verif.Props.C138_altitude",
    "Verif.Props.C138_speeds",
    "Verif.Props.C138_takeoff",
    "Verif.Props.C138_cruise",
    "Verif.Props.C138_turn",
    "Verif.Props.C138_climb",
    "Verif.Props.C138_ceiling",
    "Verif.Props.C138_combined",
    "Verif.Props.C138_stall",
    "Verif.Props.C138_mission_violated"
   ],
   "note": ""
  },
  {
   "property": "C139",
   "status": "proved",
   "theorems": [
    "Verif.Props.C139_design_point",
    "Verif.Props.C139_cruise_excess",
    "Verif.Props.C139_cruise_factor"
   ],
   "note": ""
  },
  {
   "property": "C140",
   "status": "proved",
   "theorems": [
    "Verif.Props.C140_layers",
    "Verif.Props.C140_layers_violated",
    "Verif.Props.C140_pressure_violated",
    "Verif.Props.C140_column",
    "Verif.Props.C140_inside"
   ],
   "note": ""
  },
  {
   "property": "C141",
   "status": "proved",
   "theorems": [
    "Verif.Props.C141_limit_loads",
    "Verif.Props.C141_stall",
    "Verif.Props.C141_chords",
    "Verif.Props.C141_gust_speeds",
    "Verif.Props.C141_gust_loads",
    "Verif.Props.C141_design_speeds",
    "Verif.Props.C141_gust_penetration"
   ],
   "note": ""
  },
  {
   "property": "C142",
   "status": "proved",
   "theorems": [
    "Verif.Props.C142_cruise",
    "Verif.Props.C142_overflow",
    "Verif.Props.C142_ceiling",
    "Verif.Props.C142_climb",
    "Verif.Props.C142_takeoff",
    "Verif.Props.C142_turn_power",
    "Verif.Props.C142_airworthiness"
   ],
   "note": ""
  },
  {
   "property": "C143",
   "status": "proved",
   "theorems": [
    "Verif.Props.C143_cruise",
    "Verif.Props.C143_ceiling",
    "Verif.Props.C143_climb",
    "Verif.Props.C143_turn",
    "Verif.Props.C143_takeoff"
   ],
   "note": ""
  },
  {
   "property": "C144",
   "status": "proved",
   "theorems": [
    "Verif.Props.C144_ratios",
    "Verif.Props.C144_turbofan",
    "Verif.Props.C144_turbojet",
    "Verif.Props.C144_piston",
    "Verif.Props.C144_turboprop"
   ],
   "note": ""
  },
  {
   "property": "C145",
   "status": "proved",
   "theorems": [
    "Verif.Props.C145_iterable",
    "Verif.Props.C145_reads",
    "Verif.Props.C145_deck",
    "Verif.Props.C145_single_violated",
    "Verif.Props.C145_piston_violated",
    "Verif.Props.C145_order_violated",
    "Verif.Props.C145_again"
   ],
   "note": ""
  },
  {
   "property": "C146",
   "status": "proved",
   "theorems": [
    "Verif.Props.C146_values",
    "Verif.Props.C146_thrust",
    "Verif.Props.C146_single",
    "Verif.Props.C146_power",
    "Verif.Props.C146_aero",
    "Verif.Props.C146_etas",
    "Verif.Props.C146_bounded",
    "Verif.Props.C146_silent_violated",
    "Verif.Props.C146_deprecated_violated",
    "Verif.Props.C146_negative_violated",
    "Verif.Props.C146_mach_violated"
   ],
   "note": ""
  },
  {
   "property": "C147",
   "status": "proved",
   "theorems": [
    "Verif.Props.C147_values",
    "Verif.Props.C147_warnings",
    "Verif.Props.C147_inverted",
    "Verif.Props.C147_manoeuvre",
    "Verif.Props.C147_raised_violated",
    "Verif.Props.C147_limit_violated"
   ],
   "note": ""
  },
  {
   "property": "C148",
   "status": "proved",
   "theorems": [
    "Verif.Props.C148_values",
    "Verif.Props.C148_plots_values",
    "Verif.Props.C148_jet",
    "Verif.Props.C148_turboprop",
    "Verif.Props.C148_electric",
    "Verif.Props.C148_piston",
    "Verif.Props.C148_fits",
    "Verif.Props.C148_propeller",
    "Verif.Props.C148_outside_violated",
    "Verif.Props.C148_plots_violated",
    "Verif.Props.C148_plots"
   ],
   "note": ""
  },
  {
   "property": "C149",
   "status": "proved",
   "theorems": [
    "Verif.Props.C149_values",
    "Verif.Props.C149_arguments",
    "Verif.Props.C149_warnings",
    "Verif.Props.C149_silent_violated",
    "Verif.Props.C149_show_violated",
    "Verif.Props.C149_limit_violated"
   ],
   "note": ""
  },
  {
   "property": "C150",
   "status": "proved",
   "theorems": [
    "Verif.Aircraft.C150_thrust",
    "Verif.Aircraft.C150_power",
    "Verif.Aircraft.C150_kinds",
    "Verif.Aircraft.C150_sealevel",
    "Verif.Aircraft.C150_outside",
    "Verif.Aircraft.C150_mapping_violated",
    "Verif.Aircraft.C150_missing_violated"
   ],
   "note": ""
  },
  {
   "property": "C151",
   "status": "proved",
   "theorems": [
    "Verif.Aircraft.C151_jets",
    "Verif.Aircraft.C151_turboprops",
    "Verif.Aircraft.C151_wasp",
    "Verif.Aircraft.C151_io540",
    "Verif.Aircraft.C151_wasp_violated",
    "Verif.Aircraft.C151_tfe7315_violated"
   ],
   "note": ""
  },
  {
   "property": "C152",
   "status": "proved",
   "theorems": [
    "Verif.Props.C152_first",
    "Verif.Props.C152_second",
    "Verif.Props.C152_third",
    "Verif.Props.C152_fourth",
    "Verif.Props.C152_factor"
   ],
   "note": ""
  },
  {
   "property": "C153",
   "status": "proved",
   "theorems": [
    "Verif.Props.C153_tas",
    "Verif.Props.C153_cas",
    "Verif.Props.C153_kcas"
   ],
   "note": ""
  },
  {
   "property": "C154",
   "status": "proved",
   "theorems": [
    "Verif.Props.C154_vstall",
    "Verif.Props.C154_stall",
    "Verif.Props.C154_inverse",
    "Verif.Props.C154_climb",
    "Verif.Props.C154_radius"
   ],
   "note": ""
  },
  {
   "property": "C155",
   "status": "proved",
   "theorems": [
    "Verif.Props.C155_components",
    "Verif.Props.C155_speed",
    "Verif.Props.C155_sign",
    "Verif.Props.C155_heights",
    "Verif.Props.C155_height_inverse",
    "Verif.Props.C155_gas",
    "Verif.Props.C155_airspeed_inverse",
    "Verif.Props.C155_eas"
   ],
   "note": ""
  },
  {
   "property": "C156",
   "status": "proved",
   "theorems": [
    "Verif.Props.C156_densalt",
    "Verif.Props.C156_pressure_inverse",
    "Verif.Props.C156_density_inverse"
   ],
   "note": ""
  },
  {
   "property": "C157",
   "status": "proved",
   "theorems": [
    "Verif.Props.C157_factor",
    "Verif.Props.C157_cruise",
    "Verif.Props.C157_climb",
    "Verif.Props.C157_ceiling",
    "Verif.Props.C157_takeoff",
    "Verif.Props.C157_turn",
    "Verif.Props.C157_days"
   ],
   "note": ""
  },
  {
   "property": "C158",
   "status": "proved",
   "theorems": [
    "Verif.Props.C158_cruise",
    "Verif.Props.C158_climb",
    "Verif.Props.C158_ceiling",
    "Verif.Props.C158_takeoff",
    "Verif.Props.C158_turn",
    "Verif.Props.C158_combined",
    "Verif.Props.C158_thrust"
   ],
   "note": ""
  }
 ]
}