{
 "claims": [
  {
   "property": "C01",
   "status": "proved",
   "theorems": [
    "Verif.Props.c01_init_values",
    "Verif.Props.c01_unique"
   ],
   "note": ""
  },
  {
   "property": "C02",
   "status": "proved",
   "theorems": [
    "Verif.Props.c02_init_machine",
    "Verif.Props.c02_cycle_pos_machine",
    "Verif.Props.c02_overflow_witness"
   ],
   "note": "64-bit int and binary64 rounding at every operation; c02_overflow_witness shows the range is limited."
  },
  {
   "property": "C03",
   "status": "proved",
   "theorems": [
    "Verif.Props.c03_before_era"
   ],
   "note": ""
  },
  {
   "property": "C04",
   "status": "proved",
   "theorems": [
    "Verif.Props.c04_year_days",
    "Verif.Props.c04_era_cycle",
    "Verif.Props.c04_leap_count",
    "Verif.Props.c04_leap_years_per_cycle"
   ],
   "note": ""
  },
  {
   "property": "C05",
   "status": "proved",
   "theorems": [
    "Verif.Props.c05_progress"
   ],
   "note": ""
  },
  {
   "property": "C06",
   "status": "proved",
   "theorems": [
    "Verif.Props.c06_never_consecutive",
    "Verif.Props.c06_gap",
    "Verif.Props.c06_some_within_three"
   ],
   "note": ""
  },
  {
   "property": "C07",
   "status": "proved",
   "theorems": [
    "Verif.Props.c07_month_count_exact",
    "Verif.Props.c07_no_month_drift"
   ],
   "note": ""
  },
  {
   "property": "C08",
   "status": "proved",
   "theorems": [
    "Verif.Props.c08_exclusive_default",
    "Verif.Props.c08_exclusive_official",
    "Verif.Props.c08_exclusive_iff"
   ],
   "note": ""
  },
  {
   "property": "C09",
   "status": "proved",
   "theorems": [
    "Verif.Props.c09_year_length"
   ],
   "note": ""
  },
  {
   "property": "C10",
   "status": "proved",
   "theorems": [
    "Verif.Props.c10_own_condition",
    "Verif.Props.c10_min_gap",
    "Verif.Props.c10_consecutive",
    "Verif.Props.c10_first_consecutive",
    "Verif.Props.c10_within_seven",
    "Verif.Props.c10_within_eight_official",
    "Verif.Props.c10_seven_official_fails"
   ],
   "note": ""
  },
  {
   "property": "C11",
   "status": "proved",
   "theorems": [
    "Verif.Props.c11_phase_lock",
    "Verif.Props.c11_no_surplus_until_4098",
    "Verif.Props.c11_official"
   ],
   "note": ""
  },
  {
   "property": "C12",
   "status": "proved",
   "theorems": [
    "Verif.Props.c12_terminates",
    "Verif.Props.c12_epoch",
    "Verif.Props.c12_step",
    "Verif.Props.c12_midnight"
   ],
   "note": ""
  },
  {
   "property": "C13",
   "status": "proved",
   "theorems": [
    "Verif.Props.c13_previous_year",
    "Verif.Props.c13_maximal",
    "Verif.Props.c13_far_future",
    "Verif.Props.c13_shipped",
    "Verif.Props.c13_shipped_maximal"
   ],
   "note": ""
  },
  {
   "property": "C14",
   "status": "proved",
   "theorems": [
    "Verif.Props.c14_position",
    "Verif.Props.c14_step"
   ],
   "note": ""
  },
  {
   "property": "C15",
   "status": "proved",
   "theorems": [
    "Verif.Props.c15_full_moon_tithi",
    "Verif.Props.c15_full_moon_until_4098",
    "Verif.Props.c15_drift_4099",
    "Verif.Props.c15_suriya_day",
    "Verif.Props.c15_shipped"
   ],
   "note": ""
  },
  {
   "property": "C16",
   "status": "proved",
   "theorems": [
    "Verif.Props.c16_terminates",
    "Verif.Props.c16_day_for_day",
    "Verif.Props.c16_day"
   ],
   "note": "64-bit Duration with wrap."
  },
  {
   "property": "C17",
   "status": "proved",
   "theorems": [
    "Verif.Props.c17_alternation",
    "Verif.Props.c17_full_moon",
    "Verif.Props.c17_new_moon"
   ],
   "note": ""
  },
  {
   "property": "C18",
   "status": "proved",
   "theorems": [
    "Verif.Props.c18_month_step",
    "Verif.Props.c18_month_range"
   ],
   "note": ""
  },
  {
   "property": "C19",
   "status": "proved",
   "theorems": [
    "Verif.Props.c19_date",
    "Verif.Props.c19_closes_steady",
    "Verif.Props.c19_closes",
    "Verif.Props.c19_seasons_steady",
    "Verif.Props.c19_seasons",
    "Verif.Props.c19_fails_4116"
   ],
   "note": "Years 631..4115 with the shipped settings (c19_closes), any settings in the window (c19_closes_steady, c19_date); c19_fails_4116 shows where it ends."
  },
  {
   "property": "C20",
   "status": "proved",
   "theorems": [
    "Verif.Props.c20_lost",
    "Verif.Props.c20_gap",
    "Verif.Props.c20_gap_shipped",
    "Verif.Props.c20_continuity_steady",
    "Verif.Props.c20_continuity",
    "Verif.Props.c20_lost_4117"
   ],
   "note": "Continuity up to 4116; beyond, the exact gaps (c20_gap). c20_lost_4117 is the first loss."
  },
  {
   "property": "C21",
   "status": "proved",
   "theorems": [
    "Verif.Props.c21_festivals",
    "Verif.Props.c21_majors",
    "Verif.Props.c21_six",
    "Verif.Props.c21_two_maghas_1289",
    "Verif.Props.c21_lost_5835",
    "Verif.Props.c21_majors_steady"
   ],
   "note": "The exceptions are part of the statement: two Māgha Pūjās up to 1289, Pavāraṇā lost in 5835."
  },
  {
   "property": "C22",
   "status": "proved",
   "theorems": [
    "Verif.Props.c22_terminates",
    "Verif.Props.c22_uposatha_iff",
    "Verif.Props.c22_major_iff",
    "Verif.Props.c22_in_year"
   ],
   "note": ""
  },
  {
   "property": "C23",
   "status": "proved",
   "theorems": [
    "Verif.Props.c23_half_iff",
    "Verif.Props.c23_between"
   ],
   "note": ""
  },
  {
   "property": "C24",
   "status": "proved",
   "theorems": [
    "Verif.Props.c24_counts_steady",
    "Verif.Props.c24_counts",
    "Verif.Props.c24_total_any",
    "Verif.Props.c24_total",
    "Verif.Props.c24_later"
   ],
   "note": ""
  },
  {
   "property": "C25",
   "status": "proved",
   "theorems": [
    "Verif.Props.c25_early",
    "Verif.Props.c25_iff",
    "Verif.Props.c25_years",
    "Verif.Props.c25_mixed",
    "Verif.Props.c25_empty"
   ],
   "note": ""
  },
  {
   "property": "C26",
   "status": "proved",
   "theorems": [
    "Verif.Props.c26_sorted",
    "Verif.Props.c26_any_sort",
    "Verif.Props.c26_total"
   ],
   "note": "c26_any_sort: any correct sorting algorithm gives the same list."
  },
  {
   "property": "C27",
   "status": "proved",
   "theorems": [
    "Verif.Props.c27_content",
    "Verif.Props.c27_empty_range",
    "Verif.Props.c27_uposatha_iff",
    "Verif.Props.c27_half_iff",
    "Verif.Props.c27_major_iff"
   ],
   "note": ""
  },
  {
   "property": "C28",
   "status": "proved",
   "theorems": [
    "Verif.Props.c28_at_most_one",
    "Verif.Props.c28_get_set"
   ],
   "note": ""
  },
  {
   "property": "C29",
   "status": "proved",
   "theorems": [
    "Verif.Props.c29_find_none",
    "Verif.Props.c29_find_first",
    "Verif.Props.c29_merge_new",
    "Verif.Props.c29_merge_existing",
    "Verif.Props.c29_distinct"
   ],
   "note": ""
  },
  {
   "property": "C30",
   "status": "proved",
   "theorems": [
    "Verif.Props.c30_half_moon_days"
   ],
   "note": ""
  },
  {
   "property": "C31",
   "status": "proved",
   "theorems": [
    "Verif.Props.c31_astro",
    "Verif.Props.c31_range",
    "Verif.Props.c31_stop"
   ],
   "note": ""
  },
  {
   "property": "C32",
   "status": "proved",
   "theorems": [
    "Verif.Props.c32_kattika",
    "Verif.Props.c32_asalha"
   ],
   "note": ""
  },
  {
   "property": "C33",
   "status": "proved",
   "theorems": [
    "Verif.Props.c33_range",
    "Verif.Props.c33_adhikavara",
    "Verif.Props.c33_adhikamasa",
    "Verif.Props.c33_closed"
   ],
   "note": ""
  },
  {
   "property": "C34",
   "status": "proved",
   "theorems": [
    "Verif.Props.c34_adhikamasa",
    "Verif.Props.c34_adhikavara",
    "Verif.Props.c34_adhikamasa_small",
    "Verif.Props.c34_adhikavara_small",
    "Verif.Props.c34_adhikavara_official"
   ],
   "note": ""
  },
  {
   "property": "C35",
   "status": "proved",
   "theorems": [
    "Verif.Props.c35_horakhun",
    "Verif.Props.c35_day_only",
    "Verif.Props.c35_new_year",
    "Verif.Props.c35_tithi_step",
    "Verif.Props.c35_tithi_spec",
    "Verif.Props.c35_fields",
    "Verif.Props.c35_quantities"
   ],
   "note": ""
  },
  {
   "property": "C36",
   "status": "proved",
   "theorems": [
    "Verif.Props.c36_order",
    "Verif.Props.c36_each_once",
    "Verif.Props.c36_fields",
    "Verif.Props.c36_sorted"
   ],
   "note": "UID and DTSTAMP are inputs."
  },
  {
   "property": "C37",
   "status": "proved",
   "theorems": [
    "Verif.Props.c37_group",
    "Verif.Props.c37_keys",
    "Verif.Props.c37_concat",
    "Verif.Props.c37_years",
    "Verif.Props.c37_cli_years"
   ],
   "note": ""
  },
  {
   "property": "C38",
   "status": "proved",
   "theorems": [
    "Verif.Props.c38_contents",
    "Verif.Props.c38_missing",
    "Verif.Props.c38_broken",
    "Verif.Props.c38_one_error",
    "Verif.Props.c38_later",
    "Verif.Props.c38_no_race",
    "Verif.Props.c38_exclusive",
    "Verif.Props.c38_progress",
    "Verif.Props.c38_terminates",
    "Verif.Props.c38_name",
    "Verif.Props.c38_reported"
   ],
   "note": "All interleavings, sequentially consistent memory; sync.Once modelled by its implementation."
  },
  {
   "property": "C39",
   "status": "proved",
   "theorems": [
    "Verif.Props.c39_ranges",
    "Verif.Props.c39_exact",
    "Verif.Props.c39_inexact_035",
    "Verif.Props.c39_inexact_4",
    "Verif.Props.c39_ral_to_degree",
    "Verif.Props.c39_round_trip",
    "Verif.Props.c39_negative"
   ],
   "note": ""
  },
  {
   "property": "C40",
   "status": "proved",
   "theorems": [
    "Verif.Props.c40_small",
    "Verif.Props.c40_reduce",
    "Verif.Props.c40_sharp"
   ],
   "note": ""
  },
  {
   "property": "C41",
   "status": "proved",
   "theorems": [
    "Verif.Props.c41_months",
    "Verif.Props.c41_codes",
    "Verif.Props.c41_season_names"
   ],
   "note": ""
  },
  {
   "property": "C42",
   "status": "proved",
   "theorems": [
    "Verif.Props.c42_parse",
    "Verif.Props.c42_round_trip",
    "Verif.Props.c42_range"
   ],
   "note": ""
  },
  {
   "property": "C43",
   "status": "proved",
   "theorems": [
    "Verif.Props.c43_half_moon_631",
    "Verif.Props.c43_lost_half_moon_steady",
    "Verif.Props.c43_lost_half_moon",
    "Verif.Props.c43_first_lost"
   ],
   "note": ""
  },
  {
   "property": "C44",
   "status": "proved",
   "theorems": [
    "Verif.Props.c44_title",
    "Verif.Props.c44_uposatha_text_orderly",
    "Verif.Props.c44_half_text",
    "Verif.Props.c44_orderly",
    "Verif.Props.c44_uposatha_text"
   ],
   "note": ""
  },
  {
   "property": "C46",
   "status": "proved",
   "theorems": [
    "Verif.Props.c46_none_outside",
    "Verif.Props.c46_inside"
   ],
   "note": ""
  },
  {
   "property": "C47",
   "status": "proved",
   "theorems": [
    "Verif.Props.c47_after",
    "Verif.Props.c47_before",
    "Verif.Props.c47_jump"
   ],
   "note": "The sine is a parameter; C62 puts in Go's sine. Any choice of fused operations."
  },
  {
   "property": "C48",
   "status": "proved",
   "theorems": [
    "Verif.Props.c48_ranges",
    "Verif.Props.c48_not_reduced"
   ],
   "note": "The sine is a parameter; C62 puts in Go's sine. Any choice of fused operations."
  },
  {
   "property": "C49",
   "status": "proved",
   "theorems": [
    "Verif.Props.c49_astro_text",
    "Verif.Props.c49_day_text_orderly",
    "Verif.Props.c49_day_text"
   ],
   "note": ""
  },
  {
   "property": "C50",
   "status": "proved",
   "theorems": [
    "Verif.Props.c50_true_sun",
    "Verif.Props.c50_mean_moon",
    "Verif.Props.c50_true_moon",
    "Verif.Props.c50_raek"
   ],
   "note": "The sine is a parameter; C62 puts in Go's sine. Any choice of fused operations."
  },
  {
   "property": "C51",
   "status": "proved",
   "theorems": [
    "Verif.Props.c51_sun_not_behind",
    "Verif.Props.c51_symmetric"
   ],
   "note": "The sine is a parameter; C62 puts in Go's sine. Any choice of fused operations."
  },
  {
   "property": "C52",
   "status": "proved",
   "theorems": [
    "Verif.Props.c52_moons",
    "Verif.Props.c52_calendar"
   ],
   "note": ""
  },
  {
   "property": "C53",
   "status": "proved",
   "theorems": [
    "Verif.Props.c53_years",
    "Verif.Props.c53_empty",
    "Verif.Props.c53_moons",
    "Verif.Props.c53_moons_utc",
    "Verif.Props.c53_never_panics",
    "Verif.Props.c53_apart",
    "Verif.Props.c53_sequence"
   ],
   "note": "The tabulated moons come from data/astro; C60 and C61 derive them from the strings of data.go."
  },
  {
   "property": "C54",
   "status": "proved",
   "theorems": [
    "Verif.Props.c54_moon_uposatha",
    "Verif.Props.c54_quarter_half",
    "Verif.Props.c54_uposatha_moon"
   ],
   "note": ""
  },
  {
   "property": "C55",
   "status": "proved",
   "theorems": [
    "Verif.Props.c55_astro",
    "Verif.Props.c55_in_year_steady",
    "Verif.Props.c55_complete",
    "Verif.Props.c55_not_utc",
    "Verif.Props.c55_local_dated",
    "Verif.Props.c55_split_dated",
    "Verif.Props.c55_in_year_iff",
    "Verif.Props.c55_in_year",
    "Verif.Props.c55_local",
    "Verif.Props.c55_split"
   ],
   "note": ""
  },
  {
   "property": "C56",
   "status": "proved",
   "theorems": [
    "Verif.Props.c56_last_day"
   ],
   "note": ""
  },
  {
   "property": "C57",
   "status": "proved",
   "theorems": [
    "Verif.Props.c57_text",
    "Verif.Props.c57_written",
    "Verif.Props.c57_determines",
    "Verif.Props.c57_ascending",
    "Verif.Props.c57_order_999"
   ],
   "note": ""
  },
  {
   "property": "C58",
   "status": "proved",
   "theorems": [
    "Verif.Props.c58_text",
    "Verif.Props.c58_header",
    "Verif.Props.c58_short_orderly",
    "Verif.Props.c58_short"
   ],
   "note": "The encoder github.com/soh335/ical is not in the repository; modelled from its sample output."
  },
  {
   "property": "C59",
   "status": "proved",
   "theorems": [
    "Verif.Props.c59_clean",
    "Verif.Props.c59_idempotent",
    "Verif.Props.c59_path",
    "Verif.Props.c59_files",
    "Verif.Props.c59_dir",
    "Verif.Props.c59_base",
    "Verif.Props.c59_name"
   ],
   "note": ""
  },
  {
   "property": "C60",
   "status": "proved",
   "theorems": [
    "Verif.Props.c60_decoded",
    "Verif.Props.c60_size",
    "Verif.Props.c60_years",
    "Verif.Props.c60_read",
    "Verif.Props.c60_astro"
   ],
   "note": "The compressed strings were copied from data.go by a script."
  },
  {
   "property": "C61",
   "status": "proved",
   "theorems": [
    "Verif.Props.c61_time",
    "Verif.Props.c61_grammar",
    "Verif.Props.c61_unique",
    "Verif.Props.c61_utf8",
    "Verif.Props.c61_encoded",
    "Verif.Props.c61_nesting",
    "Verif.Props.c61_moon",
    "Verif.Props.c61_response",
    "Verif.Props.c61_repeated",
    "Verif.Props.c61_emptied",
    "Verif.Props.c61_other",
    "Verif.Props.c61_file",
    "Verif.Props.c61_data",
    "Verif.Props.c61_no_moment",
    "Verif.Props.c61_no_code"
   ],
   "note": ""
  },
  {
   "property": "C62",
   "status": "proved",
   "theorems": [
    "Verif.Props.c62_sine",
    "Verif.Props.c62_range",
    "Verif.Props.c62_positions",
    "Verif.Props.c62_true_sun",
    "Verif.Props.c62_true_moon",
    "Verif.Props.c62_not_reduced",
    "Verif.Props.c62_sun_not_behind"
   ],
   "note": "math/sin.go transcribed; the source is not in the sandbox. Arguments below 2^29."
  },
  {
   "property": "C63",
   "status": "proved",
   "theorems": [
    "Verif.Props.c63_kattika",
    "Verif.Props.c63_steady",
    "Verif.Props.c63_closes",
    "Verif.Props.c63_continuity",
    "Verif.Props.c63_year",
    "Verif.Props.c63_majors",
    "Verif.Props.c63_split",
    "Verif.Props.c63_edit",
    "Verif.Props.c63_unsound"
   ],
   "note": ""
  },
  {
   "property": "C64",
   "status": "proved",
   "theorems": [
    "Verif.Props.c64_private",
    "Verif.Props.c64_read",
    "Verif.Props.c64_seek",
    "Verif.Props.c64_first",
    "Verif.Props.c64_must",
    "Verif.Props.c64_store",
    "Verif.Props.c64_contents",
    "Verif.Props.c64_open",
    "Verif.Props.c64_name",
    "Verif.Props.c64_readdir",
    "Verif.Props.c64_embedded",
    "Verif.Props.c64_whole",
    "Verif.Props.c64_directory",
    "Verif.Props.c64_missing"
   ],
   "note": ""
  },
  {
   "property": "C65",
   "status": "proved",
   "theorems": [
    "Verif.Props.c65_year",
    "Verif.Props.c65_kattika",
    "Verif.Props.c65_asalha",
    "Verif.Props.c65_next",
    "Verif.Props.c65_generate",
    "Verif.Props.c65_calDays",
    "Verif.Props.c65_day"
   ],
   "note": ""
  },
  {
   "property": "C66",
   "status": "proved",
   "theorems": [
    "Verif.Props.c66_crash",
    "Verif.Props.c66_no_text",
    "Verif.Props.c66_success",
    "Verif.Props.c66_rerun",
    "Verif.Props.c66_limits",
    "Verif.Props.c66_utf8",
    "Verif.Props.c66_detect_caldays",
    "Verif.Props.c66_detect_ical",
    "Verif.Props.c66_caldays_file",
    "Verif.Props.c66_codes",
    "Verif.Props.c66_exit"
   ],
   "note": "No other writer of the output file; what the operating system does is an input."
  },
  {
   "property": "C67",
   "status": "proved",
   "theorems": [
    "Verif.Props.c67_read",
    "Verif.Props.c67_determines",
    "Verif.Props.c67_string"
   ],
   "note": ""
  },
  {
   "property": "C68",
   "status": "proved",
   "theorems": [
    "Verif.Props.c68_table",
    "Verif.Props.c68_fails",
    "Verif.Props.c68_one_day"
   ],
   "note": "The program is modelled with BE_Year for the field BE_year, which does not exist."
  },
  {
   "property": "C69",
   "status": "proved",
   "theorems": [
    "Verif.Props.c69_base64",
    "Verif.Props.c69_encode",
    "Verif.Props.c69_gunzip",
    "Verif.Props.c69_rfc",
    "Verif.Props.c69_unique",
    "Verif.Props.c69_bytes",
    "Verif.Props.c69_truncated",
    "Verif.Props.c69_check",
    "Verif.Props.c69_every",
    "Verif.Props.c69_reserved",
    "Verif.Props.c69_departs",
    "Verif.Props.c69_decode",
    "Verif.Props.c69_embedded"
   ],
   "note": ""
  },
  {
   "property": "C70",
   "status": "proved",
   "theorems": [
    "Verif.Props.c70_confined",
    "Verif.Props.c70_missing",
    "Verif.Props.c70_same",
    "Verif.Props.c70_directories",
    "Verif.Props.c70_leak",
    "Verif.Props.c70_held",
    "Verif.Props.c70_join"
   ],
   "note": ""
  },
  {
   "property": "C71",
   "status": "proved",
   "theorems": [
    "Verif.Props.c71_fixed",
    "Verif.Props.c71_terminates",
    "Verif.Props.c71_kattika",
    "Verif.Props.c71_asalha",
    "Verif.Props.c71_generate",
    "Verif.Props.c71_settled_year",
    "Verif.Props.c71_settled",
    "Verif.Props.c71_from_1998",
    "Verif.Props.c71_one_day",
    "Verif.Props.c71_shipped_year",
    "Verif.Props.c71_mixed",
    "Verif.Props.c71_gap",
    "Verif.Props.c71_torn"
   ],
   "note": ""
  },
  {
   "property": "C72",
   "status": "proved",
   "theorems": [
    "Verif.Props.c72_kattika",
    "Verif.Props.c72_exists_unique",
    "Verif.Props.c72_uposatha_steady",
    "Verif.Props.c72_half_steady",
    "Verif.Props.c72_major_steady",
    "Verif.Props.c72_uposatha",
    "Verif.Props.c72_half",
    "Verif.Props.c72_major",
    "Verif.Props.c72_uposatha_core",
    "Verif.Props.c72_uposatha_far",
    "Verif.Props.c72_half_far",
    "Verif.Props.c72_major_far",
    "Verif.Props.c72_ics_steady",
    "Verif.Props.c72_ical_flags",
    "Verif.Props.c72_ical_ends",
    "Verif.Props.c72_ical",
    "Verif.Props.c72_ical_exit",
    "Verif.Props.c72_caldays_flags",
    "Verif.Props.c72_caldays_ends",
    "Verif.Props.c72_caldays",
    "Verif.Props.c72_caldays_exit",
    "Verif.Props.c72_unique",
    "Verif.Props.c72_text_steady",
    "Verif.Props.c72_uposatha_wide",
    "Verif.Props.c72_uposatha_later",
    "Verif.Props.c72_half_wide",
    "Verif.Props.c72_major_later"
   ],
   "note": "Both programs, all flags; years 1290 to 4115, embedded data from 1900 on."
  },
  {
   "property": "C73",
   "status": "proved",
   "theorems": [
    "Verif.Props.c73_init",
    "Verif.Props.c73_init_sharp",
    "Verif.Props.c73_year",
    "Verif.Props.c73_year_sharp",
    "Verif.Props.c73_cycles",
    "Verif.Props.c73_horakhun",
    "Verif.Props.c73_day",
    "Verif.Props.c73_kattika",
    "Verif.Props.c73_asalha",
    "Verif.Props.c73_generate",
    "Verif.Props.c73_calDays",
    "Verif.Props.c73_calendar",
    "Verif.Props.c73_decode",
    "Verif.Props.c73_2038"
   ],
   "note": ""
  },
  {
   "property": "C74",
   "status": "proved",
   "theorems": [
    "Verif.Props.c74_mean_sun",
    "Verif.Props.c74_sun_and_moon",
    "Verif.Props.c74_true_moon",
    "Verif.Props.c74_before",
    "Verif.Props.c74_differs"
   ],
   "note": ""
  },
  {
   "property": "C75",
   "status": "proved",
   "theorems": [
    "Verif.Props.c75_text",
    "Verif.Props.c75_written",
    "Verif.Props.c75_killed",
    "Verif.Props.c75_cut",
    "Verif.Props.c75_panic",
    "Verif.Props.c75_full_disk",
    "Verif.Props.c75_simple",
    "Verif.Props.c75_sheet",
    "Verif.Props.c75_settings",
    "Verif.Props.c75_which"
   ],
   "note": "The program is modelled with BE_Year for the field BE_year, which does not exist."
  },
  {
   "property": "C76",
   "status": "proved",
   "theorems": [
    "Verif.Props.c76_period",
    "Verif.Props.c76_adhikamasa",
    "Verif.Props.c76_wouldBe",
    "Verif.Props.c76_carried",
    "Verif.Props.c76_kinds",
    "Verif.Props.c76_least",
    "Verif.Props.c76_all",
    "Verif.Props.c76_slip",
    "Verif.Props.c76_months",
    "Verif.Props.c76_rate",
    "Verif.Props.c76_nineteen"
   ],
   "note": ""
  },
  {
   "property": "C77",
   "status": "proved",
   "theorems": [
    "Verif.Props.c77_repaired",
    "Verif.Props.c77_iff",
    "Verif.Props.c77_needed",
    "Verif.Props.c77_chain",
    "Verif.Props.c77_later"
   ],
   "note": ""
  },
  {
   "property": "C78",
   "status": "proved",
   "theorems": [
    "Verif.Props.c78_help_on",
    "Verif.Props.c78_help_off",
    "Verif.Props.c78_help_other",
    "Verif.Props.c78_help_both",
    "Verif.Props.c78_program_on",
    "Verif.Props.c78_options",
    "Verif.Props.c78_stray",
    "Verif.Props.c78_plain",
    "Verif.Props.c78_before",
    "Verif.Props.c78_unknown_option",
    "Verif.Props.c78_no_command",
    "Verif.Props.c78_files",
    "Verif.Props.c78_caldays",
    "Verif.Props.c78_ical",
    "Verif.Props.c78_caldays_shown",
    "Verif.Props.c78_ical_shown",
    "Verif.Props.c78_exit"
   ],
   "note": "codegangsta/cli is not in the repository; what differs between its versions is a parameter."
  },
  {
   "property": "C79",
   "status": "proved",
   "theorems": [
    "Verif.Props.GetAstro.c79_rate",
    "Verif.Props.GetAstro.c79_usage",
    "Verif.Props.GetAstro.c79_questions",
    "Verif.Props.GetAstro.c79_ends",
    "Verif.Props.GetAstro.c79_first_minute",
    "Verif.Props.GetAstro.c79_leading_zero",
    "Verif.Props.GetAstro.c79_names",
    "Verif.Props.GetAstro.c79_limit",
    "Verif.Props.GetAstro.c79_eleven",
    "Verif.Props.GetAstro.c79_burst"
   ],
   "note": "bash as read in Model/GetAstro; clock and duration of every step are parameters."
  },
  {
   "property": "C80",
   "status": "proved",
   "theorems": [
    "Verif.Props.c80_not_doubled",
    "Verif.Props.c80_uposatha",
    "Verif.Props.c80_major",
    "Verif.Props.c80_major_once",
    "Verif.Props.c80_days_once",
    "Verif.Props.c80_text",
    "Verif.Props.c80_ics",
    "Verif.Props.c80_caldays",
    "Verif.Props.c80_ical"
   ],
   "note": ""
  },
  {
   "property": "C81",
   "status": "proved",
   "theorems": [
    "Verif.Props.c81_window",
    "Verif.Props.c81_ends",
    "Verif.Props.c81_period",
    "Verif.Props.c81_dates",
    "Verif.Props.c81_shipped",
    "Verif.Props.c81_own_year",
    "Verif.Props.c81_feasts",
    "Verif.Props.c81_feasts_best"
   ],
   "note": ""
  },
  {
   "property": "C82",
   "status": "proved",
   "theorems": [
    "Verif.Props.c82_nineteen",
    "Verif.Props.c82_shipped",
    "Verif.Props.c82_best"
   ],
   "note": ""
  }
 ]
}