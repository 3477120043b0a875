{
 "claims": [
  {
   "property": "C01",
   "status": "proved",
   "theorems": [
    "TB.C01_workshifts_tile"
   ],
   "note": ""
  },
  {
   "property": "C02",
   "status": "proved",
   "theorems": [
    "TB.C02_get_workshift"
   ],
   "note": ""
  },
  {
   "property": "C03",
   "status": "proved",
   "theorems": [
    "TB.C03_void_only",
    "TB.C03_frame_covers_range",
    "TB.C03_void_range"
   ],
   "note": ""
  },
  {
   "property": "C04",
   "status": "partial",
   "theorems": [
    "TB.C04_spans_at_marks_partial",
    "TB.C04_invalid_span",
    "TB.C04_workshifts_at_marks_partial",
    "TB.C04_negation"
   ],
   "note": "Proved except for marks in the last base unit of the frame, which are noticed only during the first second of the unit (the code appends end+1s as sentinel); C04_negation is the witness that the unrestricted claim is false."
  },
  {
   "property": "C05",
   "status": "proved",
   "theorems": [
    "TB.C05_calendar_spans",
    "TB.C05_calendar_workshifts"
   ],
   "note": ""
  },
  {
   "property": "C06",
   "status": "proved",
   "theorems": [
    "TB.C06_pattern",
    "TB.C06_empty_pattern"
   ],
   "note": ""
  },
  {
   "property": "C07",
   "status": "proved",
   "theorems": [
    "TB.C07_calendar_pattern",
    "TB.C07_independent_of_bounds"
   ],
   "note": ""
  },
  {
   "property": "C08",
   "status": "proved",
   "theorems": [
    "TB.C08_in_turns",
    "TB.C08_labels",
    "TB.C08_empty_structure"
   ],
   "note": ""
  },
  {
   "property": "C09",
   "status": "proved",
   "theorems": [
    "TB.C09_uninterrupted",
    "TB.C09_timeboard",
    "TB.C09_structure",
    "TB.C09_all_spans",
    "TB.C09_amended"
   ],
   "note": ""
  },
  {
   "property": "C10",
   "status": "proved",
   "theorems": [
    "TB.C10_carries_over",
    "TB.C10_second_timeboard",
    "TB.C10_plain_layouts",
    "TB.C10_sequence"
   ],
   "note": ""
  },
  {
   "property": "C11",
   "status": "proved",
   "theorems": [
    "TB.C11_local",
    "TB.C11_every_span_starts_workshift"
   ],
   "note": ""
  },
  {
   "property": "C12",
   "status": "proved",
   "theorems": [
    "TB.C12_amendments_exact"
   ],
   "note": ""
  },
  {
   "property": "C13",
   "status": "proved",
   "theorems": [
    "TB.C13_conflict_rejected",
    "TB.C13_raise_mode",
    "TB.C13_in_place"
   ],
   "note": ""
  },
  {
   "property": "C14",
   "status": "proved",
   "theorems": [
    "TB.C14_order_irrelevant"
   ],
   "note": ""
  },
  {
   "property": "C15",
   "status": "proved",
   "theorems": [
    "TB.C15_on_off_partition",
    "TB.C15_schedules_owned"
   ],
   "note": ""
  },
  {
   "property": "C16",
   "status": "proved",
   "theorems": [
    "TB.C16_counts_add_up"
   ],
   "note": ""
  },
  {
   "property": "C17",
   "status": "proved",
   "theorems": [
    "TB.C17_iteration"
   ],
   "note": ""
  },
  {
   "property": "C18",
   "status": "proved",
   "theorems": [
    "TB.C18_nth_first_last"
   ],
   "note": ""
  },
  {
   "property": "C19",
   "status": "proved",
   "theorems": [
    "TB.C19_rollforward"
   ],
   "note": ""
  },
  {
   "property": "C20",
   "status": "proved",
   "theorems": [
    "TB.C20_rollback"
   ],
   "note": ""
  },
  {
   "property": "C21",
   "status": "proved",
   "theorems": [
    "TB.C21_rolling_composes"
   ],
   "note": ""
  },
  {
   "property": "C22",
   "status": "proved",
   "theorems": [
    "TB.C22_plus_and_minus"
   ],
   "note": ""
  },
  {
   "property": "C23",
   "status": "proved",
   "theorems": [
    "TB.C23_overlap_is_intersection",
    "TB.C23_operators"
   ],
   "note": ""
  },
  {
   "property": "C24",
   "status": "proved",
   "theorems": [
    "TB.C24_overlap_algebra"
   ],
   "note": ""
  },
  {
   "property": "C25",
   "status": "proved",
   "theorems": [
    "TB.C25_what_portion_of"
   ],
   "note": ""
  },
  {
   "property": "C26",
   "status": "proved",
   "theorems": [
    "TB.C26_total_duration"
   ],
   "note": ""
  },
  {
   "property": "C27",
   "status": "partial",
   "theorems": [
    "TB.C27_any_label_partial",
    "TB.C27_default_selector",
    "TB.C27_negation",
    "TB.C27_worktime_is_sum",
    "TB.C27_worktime_outcomes"
   ],
   "note": "Proved for labels which are neither None nor NaN (in the model with numbers: for any reading of labels as numbers). Series.sum() leaves out None and NaN, Workshift.worktime does not: C27_negation."
  },
  {
   "property": "C28",
   "status": "proved",
   "theorems": [
    "TB.C28_sum_of_ratios",
    "TB.C28_failures"
   ],
   "note": ""
  },
  {
   "property": "C29",
   "status": "proved",
   "theorems": [
    "TB.C29_additive",
    "TB.C29_whole_period",
    "TB.C29_bounds"
   ],
   "note": ""
  },
  {
   "property": "C30",
   "status": "proved",
   "theorems": [
    "TB.C30_two_points",
    "TB.C30_null_bounds",
    "TB.C30_whole_timeboard"
   ],
   "note": ""
  },
  {
   "property": "C31",
   "status": "proved",
   "theorems": [
    "TB.C31_out_of_range_bounds",
    "TB.C31_never_returned"
   ],
   "note": ""
  },
  {
   "property": "C32",
   "status": "proved",
   "theorems": [
    "TB.C32_closed",
    "TB.C32_closed_values"
   ],
   "note": ""
  },
  {
   "property": "C33",
   "status": "proved",
   "theorems": [
    "TB.C33_by_length"
   ],
   "note": ""
  },
  {
   "property": "C34",
   "status": "proved",
   "theorems": [
    "TB.C34_by_period",
    "TB.C34_reference_time"
   ],
   "note": ""
  },
  {
   "property": "C35",
   "status": "proved",
   "theorems": [
    "TB.C35_clipping",
    "TB.C35_outside_and_covering"
   ],
   "note": ""
  },
  {
   "property": "C36",
   "status": "partial",
   "theorems": [
    "TB.C36_clipped_and_closed_partial",
    "TB.C36_negation"
   ],
   "note": "The claim is false: C36_negation gives a witness where OutOfBoundsError is raised. The partial theorem proves which workshifts are left, and that OutOfBoundsError is what is raised when none is."
  },
  {
   "property": "C37",
   "status": "proved",
   "theorems": [
    "TB.C37_search_by_reference"
   ],
   "note": ""
  },
  {
   "property": "C38",
   "status": "proved",
   "theorems": [
    "TB.C38_call"
   ],
   "note": ""
  },
  {
   "property": "C39",
   "status": "proved",
   "theorems": [
    "TB.C39_to_dataframe",
    "TB.C39_bounds",
    "TB.C39_reversed"
   ],
   "note": ""
  },
  {
   "property": "C40",
   "status": "proved",
   "theorems": [
    "TB.C40_add_schedule",
    "TB.C40_drop_schedule",
    "TB.C40_calculations_unaffected",
    "TB.C40_sequences"
   ],
   "note": ""
  },
  {
   "property": "C41",
   "status": "partial",
   "theorems": [
    "TB.C41_workshift_constructor_partial",
    "TB.C41_negative_accepted",
    "TB.C41_negation"
   ],
   "note": "The full claim is false in the code: a negative location passes the bounds check (C41_negation, C41_negative_accepted). The partial theorem covers every non-negative location."
  },
  {
   "property": "C42",
   "status": "proved",
   "theorems": [
    "TB.C42_durations_and_times"
   ],
   "note": ""
  },
  {
   "property": "C43",
   "status": "proved",
   "theorems": [
    "TB.C43_rebuilt"
   ],
   "note": ""
  },
  {
   "property": "C44",
   "status": "partial",
   "theorems": [
    "TB.C44_zero_offset_marks_partial",
    "TB.C44_zero_offset_partial",
    "TB.C44_negation_multiplied",
    "TB.C44_negation_year"
   ],
   "note": "The full statement is false for multiplied marker frequencies (C44_negation_multiplied) and, as to the right dangle, for years ending from February to June (C44_negation_year). C44_zero_offset_partial proves the rest: full equality for all other unmultiplied frequencies, and bounds with left dangles for those years."
  },
  {
   "property": "C45",
   "status": "proved",
   "theorems": [
    "TB.C45_offset_spans",
    "TB.C45_offset_arithmetic",
    "TB.C45_negative_offset",
    "TB.C45_offset_workshifts",
    "TB.C45_tried_out",
    "TB.C45_one_way",
    "TB.C45_mixed_signs"
   ],
   "note": "C45_one_way: offsets of any sign, if months and the rest do not lead opposite ways. Otherwise C45_tried_out says what is done and C45_mixed_signs that a point before its period may be kept, against the documentation."
  },
  {
   "property": "C46",
   "status": "proved",
   "theorems": [
    "TB.C46_span_kept_whole",
    "TB.C46_no_marks"
   ],
   "note": ""
  },
  {
   "property": "C47",
   "status": "proved",
   "theorems": [
    "TB.C47_exactly_which",
    "TB.C47_aliases",
    "TB.C47_accepted_frequencies"
   ],
   "note": ""
  },
  {
   "property": "C48",
   "status": "proved",
   "theorems": [
    "TB.C48_nth_weekday_of_month",
    "TB.C48_default_shift",
    "TB.C48_unique",
    "TB.C48_exists",
    "TB.C48_errors"
   ],
   "note": ""
  },
  {
   "property": "C49",
   "status": "proved",
   "theorems": [
    "TB.C49_nth_weekday",
    "TB.C49_years",
    "TB.C49_errors"
   ],
   "note": ""
  },
  {
   "property": "C50",
   "status": "proved",
   "theorems": [
    "TB.C50_extend_weekends",
    "TB.C50_count",
    "TB.C50_wrong_how"
   ],
   "note": ""
  },
  {
   "property": "C51",
   "status": "partial",
   "theorems": [
    "TB.C51_may_be_weekend",
    "TB.C51_weekday_partial"
   ],
   "note": "The full statement (a weekend is always extended by a weekday) is false and its negation is proved (C51_may_be_weekend): when enough weekdays around are holidays the search ends on the next weekend. C51_weekday_partial holds when a weekday is free before the next weekend."
  },
  {
   "property": "C52",
   "status": "proved",
   "theorems": [
    "TB.C52_out_of_range",
    "TB.C52_covers",
    "TB.C52_ranges",
    "TB.C52_builds"
   ],
   "note": ""
  },
  {
   "property": "C53",
   "status": "proved",
   "theorems": [
    "TB.C53_do_not_amend",
    "TB.C53_only_custom",
    "TB.C53_amended"
   ],
   "note": ""
  },
  {
   "property": "C54",
   "status": "partial",
   "theorems": [
    "TB.C54_custom_override_partial",
    "TB.C54_short_weekends_fail",
    "TB.C54_short_weekends_partial",
    "TB.C54_fails_concrete"
   ],
   "note": "Proved for long_weekends=True and for RU, and without long weekends for amendments on other days than fixed holidays. False otherwise: C54_short_weekends_fail proves KeyError for every custom amendment on a fixed holiday when long_weekends=False."
  },
  {
   "property": "C55",
   "status": "partial",
   "theorems": [
    "TB.C55_uk_ru_same_label",
    "TB.C55_us_same_label_partial",
    "TB.C55_new_year_fails",
    "TB.C55_options_same_label"
   ],
   "note": "Proved for UK and RU, and for US except 31 December before a Saturday New Year and 26 December 2018; C55_new_year_fails and C56_one_off_fails prove that those days do depend on the sub-range."
  },
  {
   "property": "C56",
   "status": "partial",
   "theorems": [
    "TB.C56_one_off_fails",
    "TB.C56_one_off_partial"
   ],
   "note": "False in the code: C56_one_off_fails proves that the day given for 2014 is 26 December 2018 and never 26 December 2014. The days given for 2018 are proved."
  },
  {
   "property": "C57",
   "status": "proved",
   "theorems": [
    "TB.C57_from_easter",
    "TB.C57_sunday",
    "TB.C57_date",
    "TB.C57_uk_weekdays"
   ],
   "note": ""
  },
  {
   "property": "C58",
   "status": "proved",
   "theorems": [
    "TB.C58_void_dataframe",
    "TB.C58_void_interval"
   ],
   "note": ""
  },
  {
   "property": "C59",
   "status": "proved",
   "theorems": [
    "TB.C59_interval_constructor"
   ],
   "note": ""
  },
  {
   "property": "C60",
   "status": "proved",
   "theorems": [
    "TB.C60_duty_values"
   ],
   "note": ""
  },
  {
   "property": "C61",
   "status": "partial",
   "theorems": [
    "TB.C61_extends_beyond_partial",
    "TB.C61_negation"
   ],
   "note": "The claim (from the documentation) is false: PartialOutOfBoundsError, which is not an OutOfBoundsError, is raised as well (C61_negation). The partial theorem proves that one of the two is always raised."
  },
  {
   "property": "C62",
   "status": "partial",
   "theorems": [
    "TB.C62_tried_out",
    "TB.C62_one_way",
    "TB.C62_easter_marks_partial",
    "TB.C62_easter_offset",
    "TB.C62_shift_is_days",
    "TB.C62_negation"
   ],
   "note": "The full statement is false: from_easter without shift and keyword arguments moves the mark by a day (C62_negation), because pd.DateOffset() means one day. Everything else is proved."
  },
  {
   "property": "C63",
   "status": "proved",
   "theorems": [
    "TB.C63_us_days_off"
   ],
   "note": ""
  },
  {
   "property": "C64",
   "status": "proved",
   "theorems": [
    "TB.C64_uk_days_off"
   ],
   "note": ""
  },
  {
   "property": "C65",
   "status": "proved",
   "theorems": [
    "TB.C65_norms",
    "TB.C65_ru_labels",
    "TB.C65_decrees_sensible"
   ],
   "note": ""
  },
  {
   "property": "C66",
   "status": "partial",
   "theorems": [
    "TB.C66_loop_visits_all_partial",
    "TB.C66_nested_loops_fail",
    "TB.C66_next_before_iter"
   ],
   "note": "The full claim is false: nested loops over the same interval object end the outer loop (C66_nested_loops_fail), and next() on an interval which has not been iterated raises AttributeError (C66_next_before_iter). The partial theorem covers every loop whose body does not iterate over the same object, from any state of the object."
  },
  {
   "property": "C67",
   "status": "partial",
   "theorems": [
    "TB.C67_columns_partial",
    "TB.C67_column_displaced"
   ],
   "note": "The full claim is false: a schedule named like a built-in column displaces that column (C67_column_displaced). The partial theorem proves all columns for names not taken by a schedule, and all schedule columns."
  },
  {
   "property": "C68",
   "status": "proved",
   "theorems": [
    "TB.C68_adjacent_add_up",
    "TB.C68_portions_add_up"
   ],
   "note": ""
  },
  {
   "property": "C69",
   "status": "proved",
   "theorems": [
    "TB.C69_nth_is_rolling"
   ],
   "note": ""
  },
  {
   "property": "C70",
   "status": "proved",
   "theorems": [
    "TB.C70_opposite_schedules",
    "TB.C70_same_selection",
    "TB.C70_ratios"
   ],
   "note": ""
  },
  {
   "property": "C71",
   "status": "proved",
   "theorems": [
    "TB.C71_periods_partition"
   ],
   "note": ""
  },
  {
   "property": "C72",
   "status": "proved",
   "theorems": [
    "TB.C72_covers"
   ],
   "note": ""
  },
  {
   "property": "C73",
   "status": "partial",
   "theorems": [
    "TB.C73_longer_timeboard_partial",
    "TB.C73_negation"
   ],
   "note": "Proved for layouts of any nesting except that explicit marks must not be later than a second into the last base unit of either timeboard, where the claim is false (C73_negation, a consequence of C04). Markers with 'at', multiplied or not, have to be local (Spec/Marks.lean), which C75 proves for the built-in functions; this needs base units which are not multiplied."
  },
  {
   "property": "C74",
   "status": "proved",
   "theorems": [
    "TB.C74_anchored_pattern",
    "TB.C74_independent_of_bounds"
   ],
   "note": ""
  },
  {
   "property": "C75",
   "status": "proved",
   "theorems": [
    "TB.C75_marked_workshifts",
    "TB.C75_multiplied",
    "TB.C75_weekday_marks",
    "TB.C75_easter_marks",
    "TB.C75_offset_marks",
    "TB.C75_multiplied_offset_marks"
   ],
   "note": ""
  },
  {
   "property": "C76",
   "status": "proved",
   "theorems": [
    "TB.C76_construction_errors",
    "TB.C76_refusals",
    "TB.C76_marks_refused",
    "TB.C76_constructed"
   ],
   "note": ""
  },
  {
   "property": "C77",
   "status": "proved",
   "theorems": [
    "TB.C77_lookup_errors"
   ],
   "note": ""
  },
  {
   "property": "C78",
   "status": "proved",
   "theorems": [
    "TB.C78_template",
    "TB.C78_preconfigured",
    "TB.C78_default"
   ],
   "note": ""
  },
  {
   "property": "C79",
   "status": "proved",
   "theorems": [
    "TB.C79_calendar_dangles",
    "TB.C79_marked_dangles",
    "TB.C79_periods_looked_at"
   ],
   "note": ""
  },
  {
   "property": "C80",
   "status": "proved",
   "theorems": [
    "TB.C80_between",
    "TB.C80_no_hours_off",
    "TB.C80_eight_hours",
    "TB.C80_short_eves"
   ],
   "note": ""
  },
  {
   "property": "C81",
   "status": "proved",
   "theorems": [
    "TB.C81_same_layout",
    "TB.C81_pattern_layout"
   ],
   "note": ""
  },
  {
   "property": "C82",
   "status": "proved",
   "theorems": [
    "TB.C82_lookup",
    "TB.C82_workshifts",
    "TB.C82_intervals",
    "TB.C82_worktime",
    "TB.C82_base_unit"
   ],
   "note": ""
  },
  {
   "property": "C83",
   "status": "proved",
   "theorems": [
    "TB.C83_workshift_ref",
    "TB.C83_workshift_ref_unsplit",
    "TB.C83_worktime_source",
    "TB.C83_default_schedule"
   ],
   "note": ""
  },
  {
   "property": "C84",
   "status": "proved",
   "theorems": [
    "TB.C84_repr_recreates",
    "TB.C84_created_once",
    "TB.C84_same_timeboard",
    "TB.C84_timeboard_repr",
    "TB.C84_custom_rule"
   ],
   "note": ""
  },
  {
   "property": "C85",
   "status": "proved",
   "theorems": [
    "TB.C85_workshift",
    "TB.C85_interval",
    "TB.C85_void",
    "TB.C85_timeboard",
    "TB.C85_same_print"
   ],
   "note": ""
  },
  {
   "property": "C86",
   "status": "proved",
   "theorems": [
    "TB.C86_interval",
    "TB.C86_interval_on_duty",
    "TB.C86_workshift",
    "TB.C86_rolling",
    "TB.C86_lookup",
    "TB.C86_construction",
    "TB.C86_calendars",
    "TB.C86_elsewhere",
    "TB.C86_rules"
   ],
   "note": ""
  },
  {
   "property": "C87",
   "status": "proved",
   "theorems": [
    "TB.C87_between_dates",
    "TB.C87_by_period",
    "TB.C87_norms",
    "TB.C87_norms_default"
   ],
   "note": ""
  },
  {
   "property": "C88",
   "status": "proved",
   "theorems": [
    "TB.C88_outcome",
    "TB.C88_uninterrupted",
    "TB.C88_draws",
    "TB.C88_untouched",
    "TB.C88_same_outcome",
    "TB.C88_next_timeboard"
   ],
   "note": ""
  },
  {
   "property": "C89",
   "status": "proved",
   "theorems": [
    "TB.C89_moved",
    "TB.C89_weeks",
    "TB.C89_centuries",
    "TB.C89_lookup",
    "TB.C89_workshifts",
    "TB.C89_intervals"
   ],
   "note": ""
  },
  {
   "property": "C90",
   "status": "proved",
   "theorems": [
    "TB.C90_from_layout",
    "TB.C90_renamed",
    "TB.C90_lookup",
    "TB.C90_workshifts",
    "TB.C90_intervals"
   ],
   "note": ""
  },
  {
   "property": "C91",
   "status": "proved",
   "theorems": [
    "TB.C91_workshift",
    "TB.C91_workshift_errors",
    "TB.C91_null_is_last",
    "TB.C91_interval",
    "TB.C91_interval_errors",
    "TB.C91_list_reference",
    "TB.C91_call",
    "TB.C91_new_workshift",
    "TB.C91_new_interval",
    "TB.C91_arithmetic",
    "TB.C91_amendments",
    "TB.C91_amendments_kind",
    "TB.C91_organizer"
   ],
   "note": ""
  },
  {
   "property": "C92",
   "status": "proved",
   "theorems": [
    "TB.C92_wider",
    "TB.C92_ratios"
   ],
   "note": ""
  },
  {
   "property": "C93",
   "status": "proved",
   "theorems": [
    "TB.C93_later_start",
    "TB.C93_richer_schedule",
    "TB.C93_at_least"
   ],
   "note": ""
  },
  {
   "property": "C94",
   "status": "proved",
   "theorems": [
    "TB.C94_schedule",
    "TB.C94_constructor",
    "TB.C94_add_schedule",
    "TB.C94_workshifts",
    "TB.C94_dataframe"
   ],
   "note": ""
  },
  {
   "property": "C95",
   "status": "proved",
   "theorems": [
    "TB.C95_float64",
    "TB.C95_periods",
    "TB.C95_portion_rounded",
    "TB.C95_portion",
    "TB.C95_portions_compared",
    "TB.C95_worktime",
    "TB.C95_sums_inexact"
   ],
   "note": ""
  },
  {
   "property": "C96",
   "status": "partial",
   "theorems": [
    "TB.C96_names",
    "TB.C96_from_start_of_each",
    "TB.C96_weekdays_as_coded",
    "TB.C96_nth_weekday_partial",
    "TB.C96_which_shifts_stay",
    "TB.C96_from_easter_western",
    "TB.C96_from_easter_orthodox",
    "TB.C96_no_arguments",
    "TB.C96_rule_raises",
    "TB.C96_wrong_arguments",
    "TB.C96_own_function",
    "TB.C96_negation"
   ],
   "note": "Full statement fails for shifted weekdays outside their period (C96_negation); C96_nth_weekday_partial assumes that the shift stays in the period, C96_weekdays_as_coded describes what happens otherwise. Easter: periods are calendar years, offsets without years and months, Orthodox Easter in 1585-4097."
  },
  {
   "property": "C97",
   "status": "proved",
   "theorems": [
    "TB.C97_workshifts",
    "TB.C97_division",
    "TB.C97_read_back",
    "TB.C97_error_iff",
    "TB.C97_new_pattern"
   ],
   "note": ""
  },
  {
   "property": "C98",
   "status": "proved",
   "theorems": [
    "TB.C98_list",
    "TB.C98_list_read",
    "TB.C98_workshifts",
    "TB.C98_get_interval",
    "TB.C98_intervals",
    "TB.C98_two_intervals",
    "TB.C98_count_periods"
   ],
   "note": ""
  },
  {
   "property": "C99",
   "status": "proved",
   "theorems": [
    "TB.C99_sum",
    "TB.C99_interval",
    "TB.C99_workshift"
   ],
   "note": ""
  },
  {
   "property": "C100",
   "status": "partial",
   "theorems": [
    "TB.C100_raising_partial",
    "TB.C100_two_timestamps",
    "TB.C100_wrapping_partial",
    "TB.C100_undetected",
    "TB.C100_supported",
    "TB.C100_end_unchecked",
    "TB.C100_negation"
   ],
   "note": "Full statement fails (C100_negation): the end of the last base unit is not checked by the constructor (C100_end_unchecked), and a wrapped start escapes the check in frames of one base unit or of 2**64 ns and more (C100_undetected). Proved: frames within the limits (C100_supported), and what the constructor does for all frequencies and timestamps (C100_raising_partial, C100_wrapping_partial)."
  },
  {
   "property": "C101",
   "status": "proved",
   "theorems": [
    "TB.C101_together",
    "TB.C101_portions",
    "TB.C101_periods"
   ],
   "note": ""
  },
  {
   "property": "C102",
   "status": "proved",
   "theorems": [
    "TB.C102_uk",
    "TB.C102_us",
    "TB.C102_ru"
   ],
   "note": ""
  },
  {
   "property": "C103",
   "status": "partial",
   "theorems": [
    "TB.C103_positions",
    "TB.C103_aligned_partial",
    "TB.C103_portion",
    "TB.C103_calendars",
    "TB.C103_negation"
   ],
   "note": "Full statement fails for timeboards which are not aligned (C103_negation): intervals are compared by the numbers of workshifts (C103_positions, C103_portion). Proved for timeboards whose workshifts with the same number are at the same times (C103_aligned_partial), among them ready-made calendars which begin with the same day (C103_calendars)."
  },
  {
   "property": "C104",
   "status": "proved",
   "theorems": [
    "TB.C104_nested",
    "TB.C104_lookup",
    "TB.C104_level",
    "TB.C104_negation_marks"
   ],
   "note": ""
  },
  {
   "property": "C105",
   "status": "proved",
   "theorems": [
    "TB.C105_calendar",
    "TB.C105_marks",
    "TB.C105_two_periods",
    "TB.C105_summer",
    "TB.C105_dates"
   ],
   "note": ""
  },
  {
   "property": "C106",
   "status": "proved",
   "theorems": [
    "TB.C106_workshifts",
    "TB.C106_intervals",
    "TB.C106_get_interval",
    "TB.C106_worktime",
    "TB.C106_durations",
    "TB.C106_workshift_worktime",
    "TB.C106_same_units",
    "TB.C106_calendars",
    "TB.C106_unchecked"
   ],
   "note": ""
  },
  {
   "property": "C107",
   "status": "proved",
   "theorems": [
    "TB.C107_intervals",
    "TB.C107_amounts",
    "TB.C107_elsewhere",
    "TB.C107_day_off",
    "TB.C107_calendars"
   ],
   "note": ""
  },
  {
   "property": "C108",
   "status": "proved",
   "theorems": [
    "TB.C108_rotas",
    "TB.C108_weeks",
    "TB.C108_whole_turns",
    "TB.C108_fair",
    "TB.C108_even",
    "TB.C108_next",
    "TB.C108_one_at_a_time",
    "TB.C108_working_weeks"
   ],
   "note": ""
  },
  {
   "property": "C109",
   "status": "proved",
   "theorems": [
    "TB.C109_which",
    "TB.C109_names",
    "TB.C109_lookup",
    "TB.C109_count_periods",
    "TB.C109_timeboard",
    "TB.C109_rules",
    "TB.C109_refused"
   ],
   "note": ""
  },
  {
   "property": "C110",
   "status": "proved",
   "theorems": [
    "TB.C110_deadlines",
    "TB.C110_headcount",
    "TB.C110_salary",
    "TB.C110_annual_salary"
   ],
   "note": ""
  },
  {
   "property": "C111",
   "status": "partial",
   "theorems": [
    "TB.C111_workshifts",
    "TB.C111_remembering",
    "TB.C111_reachable",
    "TB.C111_enough",
    "TB.C111_list_partial",
    "TB.C111_refused",
    "TB.C111_negation"
   ],
   "note": "Partial: the code uses an iterator up; the claim that it is as good as the list of its labels is proved where each iterator is used for one span (C111_list_partial), refuted in general (C111_negation); what the code does is proved in full (C111_workshifts)."
  },
  {
   "property": "C112",
   "status": "proved",
   "theorems": [
    "TB.C112_get_interval",
    "TB.C112_by_length",
    "TB.C112_get_workshift",
    "TB.C112_rollforward",
    "TB.C112_rollback",
    "TB.C112_intervals",
    "TB.C112_count_periods",
    "TB.C112_two_intervals",
    "TB.C112_amendments",
    "TB.C112_calendars",
    "TB.C112_sub_ranges",
    "TB.C112_pattern"
   ],
   "note": ""
  },
  {
   "property": "C113",
   "status": "proved",
   "theorems": [
    "TB.C113_generators",
    "TB.C113_iteration",
    "TB.C113_not_iterated",
    "TB.C113_turns",
    "TB.C113_new_objects"
   ],
   "note": ""
  },
  {
   "property": "C114",
   "status": "partial",
   "theorems": [
    "TB.C114_membership_partial",
    "TB.C114_membership_fails",
    "TB.C114_equality",
    "TB.C114_truth_value"
   ],
   "note": "As coded `w in v` is always False and uses up the iteration over v (C114_membership_fails); the partial theorem covers the answers which are right and the absence of effects on other objects."
  },
  {
   "property": "C115",
   "status": "proved",
   "theorems": [
    "TB.C115_shared",
    "TB.C115_of_the_overlap",
    "TB.C115_chain",
    "TB.C115_weighted",
    "TB.C115_parts",
    "TB.C115_itself"
   ],
   "note": ""
  },
  {
   "property": "C116",
   "status": "proved",
   "theorems": [
    "TB.C116_calendar",
    "TB.C116_periods",
    "TB.C116_timeboard",
    "TB.C116_get_interval"
   ],
   "note": ""
  },
  {
   "property": "C117",
   "status": "proved",
   "theorems": [
    "TB.C117_in_turn",
    "TB.C117_new",
    "TB.C117_looking"
   ],
   "note": ""
  },
  {
   "property": "C118",
   "status": "partial",
   "theorems": [
    "TB.C118_amounts",
    "TB.C118_reachable",
    "TB.C118_lists_partial",
    "TB.C118_outermost",
    "TB.C118_marks_again",
    "TB.C118_at_again",
    "TB.C118_structure_again",
    "TB.C118_negation"
   ],
   "note": "Partial: the code uses an iterator up; the claim that it is as good as the list of its elements is proved for fresh iterators each used once (C118_lists_partial, C118_outermost), refuted in general (C118_negation); what the code does is proved in full (C118_amounts and the theorems about the second timeboard)."
  },
  {
   "property": "C119",
   "status": "proved",
   "theorems": [
    "TB.C119_ways",
    "TB.C119_unambiguous",
    "TB.C119_check",
    "TB.C119_zeros",
    "TB.C119_written_one"
   ],
   "note": "Connects the check on strings with the check on frequencies read, which the other properties use."
  },
  {
   "property": "C120",
   "status": "partial",
   "theorems": [
    "TB.C120_constructor",
    "TB.C120_overlap",
    "TB.C120_portion",
    "TB.C120_plain",
    "TB.C120_intersection_partial",
    "TB.C120_derived",
    "TB.C120_rebuilt",
    "TB.C120_lengths",
    "TB.C120_not_given",
    "TB.C120_negation"
   ],
   "note": "The claim is false for intervals made of workshifts which were got by rolling, from an interval or by iterating (TypeError in Python 3): C120_negation, C120_derived; C120_overlap says exactly when. C120_intersection_partial is the claim for the other intervals."
  },
  {
   "property": "C121",
   "status": "partial",
   "theorems": [
    "TB.C121_workshift",
    "TB.C121_within",
    "TB.C121_order",
    "TB.C121_there_and_back",
    "TB.C121_interval",
    "TB.C121_over",
    "TB.C121_void",
    "TB.C121_positions_partial",
    "TB.C121_calendars",
    "TB.C121_negation"
   ],
   "note": "Everything is proved but for Interval(tb, (ws1, ws2)), which takes the numbers of the workshifts: C121_positions_partial holds for workshifts with equal numbers and times, C121_negation is a counterexample without."
  },
  {
   "property": "C122",
   "status": "partial",
   "theorems": [
    "TB.C122_accepted_partial",
    "TB.C122_refused",
    "TB.C122_warning",
    "TB.C122_organizers_as_labels",
    "TB.C122_wrapped",
    "TB.C122_negation"
   ],
   "note": "Everything is proved but for sets with one element and dictionaries with one key other than 0, which the code refuses: C122_accepted_partial leaves them out, C122_refused tells the exceptions, C122_negation is a counterexample."
  },
  {
   "property": "C123",
   "status": "proved",
   "theorems": [
    "TB.C123_rolling_same",
    "TB.C123_rolling",
    "TB.C123_rolling_errors",
    "TB.C123_interval_same",
    "TB.C123_interval_errors",
    "TB.C123_nth",
    "TB.C123_portion",
    "TB.C123_periods",
    "TB.C123_void",
    "TB.C123_workshift_errors",
    "TB.C123_unnoticed"
   ],
   "note": ""
  },
  {
   "property": "C124",
   "status": "proved",
   "theorems": [
    "TB.C124_together",
    "TB.C124_nearest",
    "TB.C124_first_last",
    "TB.C124_selectors"
   ],
   "note": ""
  },
  {
   "property": "C125",
   "status": "proved",
   "theorems": [
    "TB.C125_written",
    "TB.C125_table",
    "TB.C125_same_table"
   ],
   "note": ""
  },
  {
   "property": "C126",
   "status": "partial",
   "theorems": [
    "TB.C126_like_list_partial",
    "TB.C126_of_another",
    "TB.C126_shared",
    "TB.C126_building_draws",
    "TB.C126_looking",
    "TB.C126_plain",
    "TB.C126_failing",
    "TB.C126_negation"
   ],
   "note": "Everything except length, bool and items of a RememberingPattern made of an iterator, which raise TypeError (C126_negation)."
  },
  {
   "property": "C127",
   "status": "proved",
   "theorems": [
    "TB.C127_two_goes",
    "TB.C127_pattern",
    "TB.C127_remembering",
    "TB.C127_agrees",
    "TB.C127_negation_turns",
    "TB.C127_negation_multiplied"
   ],
   "note": "Marks on every level must be starts of base units; rules of 'at' of the outermost marker must be regular (not multiplied)."
  },
  {
   "property": "C128",
   "status": "proved",
   "theorems": [
    "TB.C128_in_force",
    "TB.C128_invisible",
    "TB.C128_one",
    "TB.C128_negation_pattern"
   ],
   "note": "Base units and calendar patterns with multiplier 1; the organizers around may be of any kind."
  },
  {
   "property": "C129",
   "status": "proved",
   "theorems": [
    "TB.C129_inwards",
    "TB.C129_borders",
    "TB.C129_one",
    "TB.C129_label",
    "TB.C129_other_elements"
   ],
   "note": "The label drawn from a RememberingPattern is only said to be one of its labels here; which one, is said by C97."
  },
  {
   "property": "C130",
   "status": "proved",
   "theorems": [
    "TB.C130_unsplit",
    "TB.C130_reference",
    "TB.C130_exact",
    "TB.C130_counted"
   ],
   "note": "The frequency of the organizers is not multiplied; the periods asked about may be."
  },
  {
   "property": "C131",
   "status": "proved",
   "theorems": [
    "TB.C131_shorter",
    "TB.C131_around",
    "TB.C131_again"
   ],
   "note": "Markers with `at` are not among the Organizers left out (their points may be counted anew)."
  },
  {
   "property": "C132",
   "status": "proved",
   "theorems": [
    "TB.C132_marks",
    "TB.C132_periods"
   ],
   "note": "At any depth: C131_shorter, as both rules belong to Layout.Shorter."
  },
  {
   "property": "C133",
   "status": "proved",
   "theorems": [
    "TB.C133_pattern",
    "TB.C133_remembering",
    "TB.C133_which",
    "TB.C133_refused"
   ],
   "note": "Inside a layout (lists of labels): C131_shorter by the rule `units`. The RememberingPattern is treated at the top of the layout."
  },
  {
   "property": "C134",
   "status": "proved",
   "theorems": [
    "TB.C134_order",
    "TB.C134_anywhere",
    "TB.C134_swap",
    "TB.C134_as_marks",
    "TB.C134_starts",
    "TB.C134_markers"
   ],
   "note": "Markers with a multiplied frequency are not among the divisions: their periods are counted from the start of the span. Markers with functions of one's own in `at` are, if they are regular (Spec/Marks)."
  }
 ]
}