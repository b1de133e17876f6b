{
 "claims": [
  {
   "property": "C01",
   "status": "proved",
   "theorems": [
    "EDTF.C01_complete_date"
   ],
   "note": "All existing dates of years 0000-9999."
  },
  {
   "property": "C02",
   "status": "proved",
   "theorems": [
    "EDTF.C02_year_month"
   ],
   "note": "All months of years 0000-9999."
  },
  {
   "property": "C03",
   "status": "proved",
   "theorems": [
    "EDTF.C03_year"
   ],
   "note": "All years 0000-9999."
  },
  {
   "property": "C04",
   "status": "proved",
   "theorems": [
    "EDTF.C04_negative"
   ],
   "note": "Years -9999..-0000, all three precisions."
  },
  {
   "property": "C05",
   "status": "proved",
   "theorems": [
    "EDTF.C05_missing_day",
    "EDTF.C05_accepts_only_days"
   ],
   "note": "Positive and negative years; the error is a plain one."
  },
  {
   "property": "C06",
   "status": "proved",
   "theorems": [
    "EDTF.C06_instant",
    "EDTF.C06_rejects",
    "EDTF.C06_needs_day"
   ],
   "note": "All dates of years 0000-9999, all times of day, no zone, Z, ±hh and ±hh:mm (offsets up to 24:60); complete result record. C06_rejects and C06_needs_day: every other string of the pattern is an error."
  },
  {
   "property": "C07",
   "status": "partial",
   "theorems": [
    "EDTF.C07_utc_partial",
    "EDTF.C07_offset_partial",
    "EDTF.C07_negation"
   ],
   "note": "Violated when the offset crosses a year boundary (C07_negation). C07_utc_partial: holds without zone or with Z. C07_offset_partial: with an offset the result is right exactly when the shifted reading stays in its year."
  },
  {
   "property": "C08",
   "status": "proved",
   "theorems": [
    "EDTF.C08_interval",
    "EDTF.C08_bounds"
   ],
   "note": "Any two existing level 0 dates; the complete result record."
  },
  {
   "property": "C09",
   "status": "partial",
   "theorems": [
    "EDTF.C09_negation",
    "EDTF.C09_order_partial"
   ],
   "note": "Violated: C09_negation gives 2008/1964. C09_order_partial states exactly when an accepted interval is in order."
  },
  {
   "property": "C10",
   "status": "proved",
   "theorems": [
    "EDTF.C10_source"
   ],
   "note": "All strings."
  },
  {
   "property": "C11",
   "status": "proved",
   "theorems": [
    "EDTF.C11_agree",
    "EDTF.C11_error",
    "EDTF.C11_exception"
   ],
   "note": "All strings; C11_exception shows that the exception is needed."
  },
  {
   "property": "C12",
   "status": "proved",
   "theorems": [
    "EDTF.C12_valid"
   ],
   "note": "All strings."
  },
  {
   "property": "C13",
   "status": "partial",
   "theorems": [
    "EDTF.C13_exact_partial",
    "EDTF.C13_negation",
    "EDTF.C13_level0_partial"
   ],
   "note": "Violated: C13_negation. C13_level0_partial: holds for all level 0 strings. C13_exact_partial: a valid string is understood exactly unless it is in the list of refused strings of C62 (with a plain or invalid error) or of panics of C63."
  },
  {
   "property": "C14",
   "status": "proved",
   "theorems": [
    "EDTF.C14_unrecognized"
   ],
   "note": "All strings."
  },
  {
   "property": "C15",
   "status": "partial",
   "theorems": [
    "EDTF.C15_sig_partial",
    "EDTF.C15_only_partial",
    "EDTF.C15_exp_partial",
    "EDTF.C15_negation"
   ],
   "note": "Violated: C15_negation. Exact for significant digits (C15_sig_partial); every crashing string is one of these or an exponential year of at least 2^63 (C15_only_partial); exponential years do not crash while bits + 4*exponent < 2^31-1 (C15_exp_partial), C23_panic_partial has ones that do. C63_panic is exact for all strings. Missing: the property itself, which the code does not satisfy."
  },
  {
   "property": "C16",
   "status": "partial",
   "theorems": [
    "EDTF.C16_year_partial",
    "EDTF.C16_month_or_day_partial",
    "EDTF.C16_negation"
   ],
   "note": "Proved in full for years (C16_year_partial). Violated for dates with a month or day: the season pattern captures them; C16_month_or_day_partial gives the exact result (the whole month, no flags; an error for years -999..-1) and C16_negation two witnesses."
  },
  {
   "property": "C17",
   "status": "partial",
   "theorems": [
    "EDTF.C17_start",
    "EDTF.C17_end_year_partial",
    "EDTF.C17_end_month_or_day_partial",
    "EDTF.C17_negation"
   ],
   "note": "'../D' and '/D' proved for every date; 'D/..' and 'D/' for years. Violated for a month or day before the slash (taken as a season): exact result in C17_end_month_or_day_partial, witness in C17_negation."
  },
  {
   "property": "C18",
   "status": "partial",
   "theorems": [
    "EDTF.C18_numeric_partial",
    "EDTF.C18_bounds_partial",
    "EDTF.C18_negation",
    "EDTF.C18_text",
    "EDTF.C18_text_last"
   ],
   "note": "Text form proved in full. Numeric form exact for every year -9999..9999 (C18_numeric_partial): holds except winter of -1000 (C18_negation), an error; years -999..-1 and winter of 9999 are errors."
  },
  {
   "property": "C19",
   "status": "partial",
   "theorems": [
    "EDTF.C19_months_partial",
    "EDTF.C19_crossing_partial",
    "EDTF.C19_negation"
   ],
   "note": "Months of the grouping proved for every code and year, except that December-to-February groupings of 0000-0998 and 9999 are shown to be errors (the code writes the next year unpadded)."
  },
  {
   "property": "C20",
   "status": "partial",
   "theorems": [
    "EDTF.C20_exact_partial",
    "EDTF.C20_inside_partial",
    "EDTF.C20_negation"
   ],
   "note": "Violated for months written \"0X\", which the code takes as October to December (C20_negation: 1984-0X excludes January). C20_exact_partial: all readings are inside exactly unless the month is \"0X\" and the day is not \"00\". The theorems cover every date of four year characters and two-character month and day, each a digit or X."
  },
  {
   "property": "C21",
   "status": "partial",
   "theorems": [
    "EDTF.C21_exact_partial",
    "EDTF.C21_tight_partial",
    "EDTF.C21_month_partial",
    "EDTF.C21_negation"
   ],
   "note": "Violated: C21_negation (1985-12-1X is not tight and 1984-XX-00 parses without having a reading). C21_exact_partial: tight exactly unless the month is \"0X\", or the day \"00\", or year and month are in digits and the first or last day of the month is not a reading."
  },
  {
   "property": "C22",
   "status": "proved",
   "theorems": [
    "EDTF.C22_four",
    "EDTF.C22_more",
    "EDTF.C22_fewer"
   ],
   "note": "Four digits: the complete result record; any longer digit string: unsupported; one to three digits: invalid. With and without a minus sign."
  },
  {
   "property": "C23",
   "status": "partial",
   "theorems": [
    "EDTF.C23_year_partial",
    "EDTF.C23_unsupported_partial",
    "EDTF.C23_small_partial",
    "EDTF.C23_huge_partial",
    "EDTF.C23_sound_partial",
    "EDTF.C23_wrap_partial",
    "EDTF.C23_negation",
    "EDTF.C23_panic_partial"
   ],
   "note": "Violated above 2^63: C23_negation (2^64+2000 is read as the year 2000), C23_wrap_partial. Proved: exact year for 1000 <= m*10^e <= 9999 (C23_year_partial), unsupported from 10000 to below 2^63 (C23_unsupported_partial), error for absolute values below 1000 (C23_small_partial), never a date from 2^78 (C23_huge_partial); C23_panic_partial gives the inputs that crash."
  },
  {
   "property": "C24",
   "status": "partial",
   "theorems": [
    "EDTF.C24_actual_partial",
    "EDTF.C24_two_partial",
    "EDTF.C24_fails",
    "EDTF.C24_negation",
    "EDTF.C24_short_partial",
    "EDTF.C24_large_partial",
    "EDTF.C24_minus_partial",
    "EDTF.C24_panic_partial"
   ],
   "note": "The code cuts n digits from the right instead of keeping n from the left, so the documented meaning holds only for n = 2 (C24_two_partial) and fails for every year from 1000 and n = 1, 3, 4 (C24_fails). C24_actual_partial gives the exact result for every year of at least 1000 in absolute value; C24_short_partial, C24_large_partial, C24_minus_partial and C24_panic_partial cover the remaining years and numbers. Missing: the property itself, which the code does not satisfy."
  },
  {
   "property": "C25",
   "status": "partial",
   "theorems": [
    "EDTF.C25_lower_exact_partial",
    "EDTF.C25_upper_exact_partial",
    "EDTF.C25_bounds_partial",
    "EDTF.C25_text_order_partial",
    "EDTF.C25_negation"
   ],
   "note": "Violated: C25_negation. C25_text_order_partial gives the bounds of every closed set. C25_lower_exact_partial: the lower bound is right exactly if the members before year 0 are all of one year; C25_upper_exact_partial says exactly when the upper bound is right (both without the year -0000)."
  },
  {
   "property": "C26",
   "status": "partial",
   "theorems": [
    "EDTF.C26_flag_partial",
    "EDTF.C26_flags_differ",
    "EDTF.C26_upTo",
    "EDTF.C26_onFrom",
    "EDTF.C26_one_side_partial",
    "EDTF.C26_both_sides_partial",
    "EDTF.C26_negation"
   ],
   "note": "Violated for sets open on both sides: C26_negation. All other sets of level 0 dates are covered: closed, one side open, single dates."
  },
  {
   "property": "C27",
   "status": "partial",
   "theorems": [
    "EDTF.C27_group_partial",
    "EDTF.C27_bounds_partial",
    "EDTF.C27_only_partial",
    "EDTF.C27_negation",
    "EDTF.C27_zero_day",
    "EDTF.C27_negative_partial"
   ],
   "note": "Full result proved for years 0000-9999 with right qualifiers at least one of which is before the last component, and the converse (C27_only_partial). A qualifier after the last component only is C16: for months and days the code drops it (C27_negation). Negative years are shown to be errors."
  },
  {
   "property": "C28",
   "status": "proved",
   "theorems": [
    "EDTF.C28_individual",
    "EDTF.C28_marks",
    "EDTF.C28_only",
    "EDTF.C28_negative",
    "EDTF.C28_mixed"
   ],
   "note": "Full result for years 0000-9999 and every combination of left qualifiers, with the converse; negative years and texts mixing left and right qualifiers are shown to be errors."
  },
  {
   "property": "C29",
   "status": "proved",
   "theorems": [
    "EDTF.C29_alone",
    "EDTF.C29_ranges",
    "EDTF.C29_level",
    "EDTF.C29_digits",
    "EDTF.C29_right",
    "EDTF.C29_only"
   ],
   "note": "Endpoints are dates of four year characters and two-character month and day (digits or X, optional sign) with qualifiers on the left, which is exactly what the Level 2 interval pattern accepts (C29_only); endpoints qualified on the right are rejected (C29_right). C29_alone: the start range depends on A only and the end range on B only. C29_ranges: flags are the qualifiers written, bounds the first and last reading (month \"0X\" and day \"00\" excepted, see C20 and C21). C29_digits: intervals of existing dates in digits always parse."
  },
  {
   "property": "C30",
   "status": "proved",
   "theorems": [
    "EDTF.C30_open_unknown",
    "EDTF.C30_only"
   ],
   "note": "Both literals, and no other string has level -1."
  },
  {
   "property": "C31",
   "status": "proved",
   "theorems": [
    "EDTF.C31_wellformed",
    "EDTF.C31_determined"
   ],
   "note": "All strings."
  },
  {
   "property": "C32",
   "status": "partial",
   "theorems": [
    "EDTF.C32_sets_written_partial",
    "EDTF.C32_sets_exact_partial",
    "EDTF.C32_negation",
    "EDTF.C32_order_partial",
    "EDTF.C32_sets_partial"
   ],
   "note": "Violated: C32_negation. Proved for all strings but sets with an open side (C32_order_partial). C32_sets_written_partial: a set of existing dates is in order exactly unless one side is open and the member written last is over before the one written first begins; C32_sets_exact_partial: without -0000, exactly unless one side is open and its members are before year 0 and not all of one year."
  },
  {
   "property": "C33",
   "status": "proved",
   "theorems": [
    "EDTF.C33_years"
   ],
   "note": "All strings."
  },
  {
   "property": "C34",
   "status": "proved",
   "theorems": [
    "EDTF.C34_bounds",
    "EDTF.C34_wraps",
    "EDTF.C34_parsed",
    "EDTF.C34_strings"
   ],
   "note": "All dates with bounds; also for the functions on strings."
  },
  {
   "property": "C35",
   "status": "partial",
   "theorems": [
    "EDTF.C35_negation",
    "EDTF.C35_irrefl_partial",
    "EDTF.C35_self",
    "EDTF.C35_asymm_partial"
   ],
   "note": "Violated: C35_negation (an instant is before and after itself). C35_self states exactly when; the partial theorems cover dates that last."
  },
  {
   "property": "C36",
   "status": "proved",
   "theorems": [
    "EDTF.C36_trans",
    "EDTF.C36_strings",
    "EDTF.C36_needs_order"
   ],
   "note": "The hypothesis of the statement (not ending before starting) is shown necessary in C36_needs_order."
  },
  {
   "property": "C37",
   "status": "proved",
   "theorems": [
    "EDTF.C37_between",
    "EDTF.C37_open_end",
    "EDTF.C37_open_date"
   ],
   "note": "All parsable strings with bounds; open cessation; open date."
  },
  {
   "property": "C38",
   "status": "proved",
   "theorems": [
    "EDTF.C38_derive",
    "EDTF.C38_outer",
    "EDTF.C38_nested"
   ],
   "note": "All strings; nesting for every existing calendar date."
  },
  {
   "property": "C39",
   "status": "proved",
   "theorems": [
    "EDTF.C39_days",
    "EDTF.C39_long_years",
    "EDTF.C39_negative_months",
    "EDTF.C39_other_months"
   ],
   "note": "All 64-bit years and all months; also what the out-of-range months 0 and above 12 give."
  },
  {
   "property": "C40",
   "status": "proved",
   "theorems": [
    "EDTF.C40_full_date",
    "EDTF.C40_existing",
    "EDTF.C40_year_month",
    "EDTF.C40_year",
    "EDTF.C40_table",
    "EDTF.C40_equals",
    "EDTF.C40_signed_day",
    "EDTF.C40_negative_year"
   ],
   "note": "All texts of digits and dashes; the complete table for two-digit months and days (C40_table), years and year-months alone, and YMD.Equals; C40_signed_day and C40_negative_year show where the function departs outside that domain."
  },
  {
   "property": "C41",
   "status": "proved",
   "theorems": [
    "EDTF.C41_sets",
    "EDTF.C41_named",
    "EDTF.C41_tests"
   ],
   "note": "All pairs of 32-bit flag sets; the nine named non-zero precisions."
  },
  {
   "property": "C42",
   "status": "proved",
   "theorems": [
    "EDTF.C42_roundtrip",
    "EDTF.C42_parsed",
    "EDTF.C42_injective",
    "EDTF.C42_timestamp",
    "EDTF.C42_boundary_text",
    "EDTF.C42_undated_text",
    "EDTF.C42_document_text",
    "EDTF.C42_range_text"
   ],
   "note": "Round trip for every date whose integers are 64-bit, hence for every parsed date; the timestamp member is present exactly when there is a timestamp; the texts are also given literally. encoding/json is modelled (escapes, numbers, null, omitempty, case-insensitive names); strings are valid Unicode."
  },
  {
   "property": "C43",
   "status": "partial",
   "theorems": [
    "EDTF.C43_negation",
    "EDTF.C43_others_partial",
    "EDTF.C43_undated"
   ],
   "note": "Violated: C43_negation (NotSet makes a NotImplemented error). The other four kinds correspond exactly."
  },
  {
   "property": "C44",
   "status": "proved",
   "theorems": [
    "EDTF.C44_deprecated",
    "EDTF.C44_which"
   ],
   "note": "All strings."
  },
  {
   "property": "C45",
   "status": "partial",
   "theorems": [
    "EDTF.C45_roundtrip",
    "EDTF.C45_accepts",
    "EDTF.C45_negation"
   ],
   "note": "Round trip proved for all 64-bit integers. The accepted language is characterised exactly (C45_accepts); it is larger than stated, see C45_negation."
  },
  {
   "property": "C46",
   "status": "partial",
   "theorems": [
    "EDTF.C46_year",
    "EDTF.C46_unspecified_year",
    "EDTF.C46_digits_partial",
    "EDTF.C46_negation",
    "EDTF.C46_unspecified_partial"
   ],
   "note": "Years in digits report YEAR and years with unspecified digits DECADE, CENTURY or MILLENIUM, as stated. Months and days in digits always report YEAR, so the statement is false for them (C46_negation, for every such date). C46_unspecified_partial gives the precision reported for every other date with unspecified digits."
  },
  {
   "property": "C47",
   "status": "proved",
   "theorems": [
    "EDTF.C47_flip",
    "EDTF.C47_bce",
    "EDTF.C47_every_instant"
   ],
   "note": "All 64-bit years but the smallest (which no parser produces); every instant."
  },
  {
   "property": "C48",
   "status": "partial",
   "theorems": [
    "EDTF.C48_negation",
    "EDTF.C48_all_partial"
   ],
   "note": "Violated: the function returns true for every string."
  },
  {
   "property": "C49",
   "status": "partial",
   "theorems": [
    "EDTF.C49_exact_partial",
    "EDTF.C49_negation"
   ],
   "note": "Violated (C49_negation). C49_exact_partial characterises the accepted strings exactly: only the beginning is anchored for numbers and only the end for names."
  },
  {
   "property": "C50",
   "status": "partial",
   "theorems": [
    "EDTF.C50_exact_partial",
    "EDTF.C50_negation",
    "EDTF.C50_brackets_partial"
   ],
   "note": "Violated: C50_negation. C50_exact_partial characterises exactly what is recognised."
  },
  {
   "property": "C51",
   "status": "partial",
   "theorems": [
    "EDTF.C51_status_partial",
    "EDTF.C51_status_dashes",
    "EDTF.C51_output_partial",
    "EDTF.C51_flag",
    "EDTF.C51_negation",
    "EDTF.C51_negative_years",
    "EDTF.C51_failure"
   ],
   "note": "Proved for argument lists whose first argument is not taken for a flag, and for all lists after \"--\". False as stated: the standard flag package takes a first argument such as \"-1985\" for a flag (status 2, C51_negative_years), and \"-h\" succeeds (C51_negation). A failing run never prints a JSON text (C51_failure)."
  },
  {
   "property": "C52",
   "status": "proved",
   "theorems": [
    "EDTF.C52_status",
    "EDTF.C52_output",
    "EDTF.C52_follows",
    "EDTF.C52_exceptions"
   ],
   "note": "All argument lists whose first argument is not taken for a flag."
  },
  {
   "property": "C53",
   "status": "proved",
   "theorems": [
    "EDTF.C53_status",
    "EDTF.C53_output"
   ],
   "note": "All argument lists whose first argument is not taken for a flag. The text of an error is the one of C79."
  },
  {
   "property": "C54",
   "status": "proved",
   "theorems": [
    "EDTF.C54_language"
   ],
   "note": "C54_language: both directions, all strings, with every side condition in Spec.Accepted."
  },
  {
   "property": "C55",
   "status": "proved",
   "theorems": [
    "EDTF.C55_denotes",
    "EDTF.C55_unique",
    "EDTF.C55_accepted",
    "EDTF.C55_text"
   ],
   "note": "Both directions for every string; the specification Denotes is in SpecDenote.lean and uses only the written forms and the calendar."
  },
  {
   "property": "C56",
   "status": "partial",
   "theorems": [
    "EDTF.C56_verdict_partial",
    "EDTF.C56_self",
    "EDTF.C56_negation"
   ],
   "note": "Violated as stated: flags are compared by a common bit or not at all, the instant 0 and the empty text are not compared. The verdict on every parsed date is characterised exactly."
  },
  {
   "property": "C57",
   "status": "partial",
   "theorems": [
    "EDTF.C57_fulfilled_partial",
    "EDTF.C57_rejected_partial",
    "EDTF.C57_nonstring",
    "EDTF.C57_crashed",
    "EDTF.C57_negation"
   ],
   "note": "Violated as stated: the reason of a rejection is a number, and some calls end the program. All three outcomes are characterised exactly, with the text that is written (C79)."
  },
  {
   "property": "C58",
   "status": "proved",
   "theorems": [
    "EDTF.C58_date",
    "EDTF.C58_time",
    "EDTF.C58_interval"
   ],
   "note": "Each test is compared with a description of the written form that mentions no pattern."
  },
  {
   "property": "C59",
   "status": "proved",
   "theorems": [
    "EDTF.C59_letter",
    "EDTF.C59_qualified",
    "EDTF.C59_unspecified",
    "EDTF.C59_negative"
   ],
   "note": "Each test is compared with a description of the written form that mentions no pattern. IsSeason and IsExtendedInterval are C49 and C48."
  },
  {
   "property": "C60",
   "status": "proved",
   "theorems": [
    "EDTF.C60_exponential",
    "EDTF.C60_significant",
    "EDTF.C60_subyear",
    "EDTF.C60_group",
    "EDTF.C60_individual",
    "EDTF.C60_digit",
    "EDTF.C60_interval"
   ],
   "note": "Each test is compared with a description of the written form that mentions no pattern. IsSetRepresentation is C50."
  },
  {
   "property": "C61",
   "status": "partial",
   "theorems": [
    "EDTF.C61_level0",
    "EDTF.C61_level1_partial",
    "EDTF.C61_level2_partial",
    "EDTF.C61_four_digits",
    "EDTF.C61_valid_partial",
    "EDTF.C61_negation"
   ],
   "note": "Level 0 is exact. Violated at Levels 1 and 2 (C61_negation); the partial theorems characterise what they accept exactly."
  },
  {
   "property": "C62",
   "status": "proved",
   "theorems": [
    "EDTF.C62_error",
    "EDTF.C62_unique"
   ],
   "note": "C62_error: both directions, all strings; Spec.Fails gives the kind, the label and the quoted text of each error. C62_unique."
  },
  {
   "property": "C63",
   "status": "proved",
   "theorems": [
    "EDTF.C63_panic",
    "EDTF.C63_three"
   ],
   "note": "C63_panic: both directions, all strings. C63_three: accepted, failing and panicking strings cover all strings and do not overlap. The roundings of math/big are in Spec.Pow5 and Spec.Rounds."
  },
  {
   "property": "C64",
   "status": "proved",
   "theorems": [
    "EDTF.C64_error",
    "EDTF.C64_span",
    "EDTF.C64_total",
    "EDTF.C64_unique"
   ],
   "note": "Exact in both directions for all strings: SpanText and SpanFails."
  },
  {
   "property": "C65",
   "status": "proved",
   "theorems": [
    "EDTF.C65_level0",
    "EDTF.C65_level1",
    "EDTF.C65_level2",
    "EDTF.C65_extended",
    "EDTF.C65_same",
    "EDTF.C65_season",
    "EDTF.C65_season_only",
    "EDTF.C65_grouping",
    "EDTF.C65_grouping_only",
    "EDTF.C65_all0",
    "EDTF.C65_all1",
    "EDTF.C65_all2"
   ],
   "note": "All feature parsers and the parsers of the three levels, all strings; five of them by agreement with ParseString, whose outcomes C54, C55, C62 and C63 determine."
  },
  {
   "property": "C66",
   "status": "proved",
   "theorems": [
    "EDTF.C66_level0",
    "EDTF.C66_level1",
    "EDTF.C66_level2",
    "EDTF.C66_matches",
    "EDTF.C66_error",
    "EDTF.C66_total"
   ],
   "note": "All strings, for the parser and the three levels."
  },
  {
   "property": "C67",
   "status": "proved",
   "theorems": [
    "EDTF.C67_after",
    "EDTF.C67_before",
    "EDTF.C67_between",
    "EDTF.C67_ranges",
    "EDTF.C67_unique"
   ],
   "note": "For every pair and triple of strings the outcome is that of the specification, in both directions."
  },
  {
   "property": "C68",
   "status": "proved",
   "theorems": [
    "EDTF.C68_lower",
    "EDTF.C68_upper",
    "EDTF.C68_ranges"
   ],
   "note": "Both directions for all strings."
  },
  {
   "property": "C69",
   "status": "proved",
   "theorems": [
    "EDTF.C69_days",
    "EDTF.C69_days_text",
    "EDTF.C69_ymd",
    "EDTF.C69_ymd_text",
    "EDTF.C69_instant",
    "EDTF.C69_instant_text",
    "EDTF.C69_ymd_record",
    "EDTF.C69_equals"
   ],
   "note": "All integers and texts, both directions; instants are whole seconds, fractions are dropped."
  },
  {
   "property": "C70",
   "status": "proved",
   "theorems": [
    "EDTF.C70_range",
    "EDTF.C70_error",
    "EDTF.C70_total"
   ],
   "note": "All texts, both directions, with the error of every rejected text."
  },
  {
   "property": "C71",
   "status": "proved",
   "theorems": [
    "EDTF.C71_reads",
    "EDTF.C71_unique",
    "EDTF.C71_refuses"
   ],
   "note": "Both directions for all texts, with uniqueness."
  },
  {
   "property": "C72",
   "status": "proved",
   "theorems": [
    "EDTF.C72_decodes"
   ],
   "note": "Both directions for all texts."
  },
  {
   "property": "C73",
   "status": "proved",
   "theorems": [
    "EDTF.C73_text"
   ],
   "note": "Equality of texts for every record."
  },
  {
   "property": "C74",
   "status": "proved",
   "theorems": [
    "EDTF.C74_flags",
    "EDTF.C74_matches",
    "EDTF.C74_parse",
    "EDTF.C74_match",
    "EDTF.C74_wasi",
    "EDTF.C74_wasm"
   ],
   "note": "Both directions for all argument lists, with the texts of error messages (C79)."
  },
  {
   "property": "C75",
   "status": "proved",
   "theorems": [
    "EDTF.C75_bounds",
    "EDTF.C75_after",
    "EDTF.C75_before",
    "EDTF.C75_equals"
   ],
   "note": "Both directions for all records whose timestamps are 64-bit numbers, as their type demands."
  },
  {
   "property": "C76",
   "status": "proved",
   "theorems": [
    "EDTF.C76_unique",
    "EDTF.C76_search",
    "EDTF.C76_match",
    "EDTF.C76_submatch",
    "EDTF.C76_flat",
    "EDTF.C76_compiled",
    "EDTF.C76_ascii"
   ],
   "note": "All expressions over ASCII classes (every pattern of the package, C76_ascii) and all texts, both directions."
  },
  {
   "property": "C77",
   "status": "proved",
   "theorems": [
    "EDTF.C77_error",
    "EDTF.C77_kind",
    "EDTF.C77_labels",
    "EDTF.C77_parser",
    "EDTF.C77_not_set",
    "EDTF.C77_ymd",
    "EDTF.C77_date",
    "EDTF.C77_range",
    "EDTF.C77_span",
    "EDTF.C77_texts",
    "EDTF.C77_qualifier",
    "EDTF.C77_edtf",
    "EDTF.C77_brackets"
   ],
   "note": "All errors with a text and all records; the texts of plain and wrapped errors are not modelled."
  },
  {
   "property": "C78",
   "status": "proved",
   "theorems": [
    "EDTF.C78_foreign",
    "EDTF.C78_alphabet",
    "EDTF.C78_rest",
    "EDTF.C78_utf8",
    "EDTF.C78_bytes",
    "EDTF.C78_read"
   ],
   "note": "C78_alphabet, C78_foreign, C78_rest for every string; C78_utf8, C78_bytes, C78_read for every sequence of bytes (Go's reading of UTF-8 is modelled in Utf8.lean). The exported ParseSeason is not the parser: its pattern has open ends, and it reads a season followed by anything (C65_season)."
  },
  {
   "property": "C79",
   "status": "proved",
   "theorems": [
    "EDTF.C79_forget",
    "EDTF.C79_date",
    "EDTF.C79_time",
    "EDTF.C79_plain",
    "EDTF.C79_text",
    "EDTF.C79_unique"
   ],
   "note": "C79_forget, C79_date, C79_time, C79_plain, C79_text, C79_unique. Message.lean repeats the parser with the texts of errors; C79_forget says that without the texts it is the parser. The messages of strconv, time and math/big are part of the model of these packages."
  },
  {
   "property": "C80",
   "status": "proved",
   "theorems": [
    "EDTF.C80_run",
    "EDTF.C80_parse",
    "EDTF.C80_match",
    "EDTF.C80_wasi"
   ],
   "note": "C80_run, C80_parse, C80_match, C80_wasi: both directions for all argument lists."
  },
  {
   "property": "C81",
   "status": "proved",
   "theorems": [
    "EDTF.C81_forget",
    "EDTF.C81_after",
    "EDTF.C81_before",
    "EDTF.C81_between",
    "EDTF.C81_ranges",
    "EDTF.C81_deprecated"
   ],
   "note": "All strings: the error text of IsAfter, IsBefore, IsBetween, DeriveRanges and ReplaceDeprecated, and that the functions with texts are the functions."
  },
  {
   "property": "C82",
   "status": "proved",
   "theorems": [
    "EDTF.C82_inside",
    "EDTF.C82_apart",
    "EDTF.C82_same",
    "EDTF.C82_compare",
    "EDTF.C82_order",
    "EDTF.C82_order_negative",
    "EDTF.C82_range",
    "EDTF.C82_tiles",
    "EDTF.C82_parts",
    "EDTF.C82_next"
   ],
   "note": "C82_inside, C82_apart and C82_same read the relation of two dates off their texts; C82_tiles, C82_parts and C82_next say that the written years, months and days cover every second exactly once; C82_order, C82_order_negative and C82_compare relate text order, time order and the comparisons."
  },
  {
   "property": "C83",
   "status": "proved",
   "theorems": [
    "EDTF.C83_forget",
    "EDTF.C83_outcome",
    "EDTF.C83_parsed",
    "EDTF.C83_missing"
   ],
   "note": "For every expectation and every date with boundaries as the parser makes them, also with missing pointers: the outcome and its text are those of the first wrong thing in the order of the checks."
  },
  {
   "property": "C84",
   "status": "proved",
   "theorems": [
    "EDTF.C84_span",
    "EDTF.C84_level0",
    "EDTF.C84_level1",
    "EDTF.C84_level2",
    "EDTF.C84_extended",
    "EDTF.C84_same",
    "EDTF.C84_season",
    "EDTF.C84_season_only",
    "EDTF.C84_grouping",
    "EDTF.C84_grouping_only",
    "EDTF.C84_all1",
    "EDTF.C84_all2",
    "EDTF.C84_forget"
   ],
   "note": "The text of the error of DateSpanFromEDTF and of every exported parser called directly is characterised for every string; the twins with texts forget to the functions of C65."
  },
  {
   "property": "C85",
   "status": "proved",
   "theorems": [
    "EDTF.C85_days",
    "EDTF.C85_days_text",
    "EDTF.C85_ymd",
    "EDTF.C85_ymd_record",
    "EDTF.C85_ymd_text",
    "EDTF.C85_range",
    "EDTF.C85_instant",
    "EDTF.C85_instant_text",
    "EDTF.C85_forget"
   ],
   "note": "The text of the error of every helper for years, months, days, instants and ranges called directly is characterised for all arguments (years of 64 bits)."
  },
  {
   "property": "C86",
   "status": "proved",
   "theorems": [
    "EDTF.C86_port",
    "EDTF.C86_flags",
    "EDTF.C86_starts",
    "EDTF.C86_ipv6"
   ],
   "note": "How the server starts is characterised for all lists of arguments, up to the call that listens."
  },
  {
   "property": "C87",
   "status": "proved",
   "theorems": [
    "EDTF.C87_exact",
    "EDTF.C87_taken",
    "EDTF.C87_wrong",
    "EDTF.C87_panics",
    "EDTF.C87_level0",
    "EDTF.C87_examples_are",
    "EDTF.C87_examples",
    "EDTF.C87_features",
    "EDTF.C87_negation"
   ],
   "note": "equivalences for all expressions of the specification; the README's claim of Levels 1 and 2 is refuted"
  },
  {
   "property": "C88",
   "status": "proved",
   "theorems": [
    "EDTF.C88_entered",
    "EDTF.C88_date",
    "EDTF.C88_copied",
    "EDTF.C88_error",
    "EDTF.C88_nothing",
    "EDTF.C88_session",
    "EDTF.C88_alike"
   ],
   "note": "The page is modelled from index.html and index.js on top of the model of cmd/parse-wasm. JSON.parse and JSON.stringify are modelled for documents without repeated or numeric names and with integers up to 2^53; C88_nothing shows that no other document arises."
  },
  {
   "property": "C89",
   "status": "partial",
   "theorems": [
    "EDTF.C89_labels_partial",
    "EDTF.C89_interval",
    "EDTF.C89_negation"
   ],
   "note": "The code violates the full statement: C89_labels_partial gives the exact strings (Unnamed) for which a label does not name its range, and proves the statement for all others; C89_negation has one of each kind."
  },
  {
   "property": "C90",
   "status": "proved",
   "theorems": [
    "EDTF.C90_answers",
    "EDTF.C90_contained",
    "EDTF.C90_ends",
    "EDTF.C90_page",
    "EDTF.C90_parts"
   ],
   "note": "C90_answers: the answer of the model is the one of the relation, for every target that begins with a slash and every set of programs. C90_contained: only embedded files. C90_ends: at most four redirections (plain paths). C90_page, C90_parts: the page and its parts."
  },
  {
   "property": "C91",
   "status": "proved",
   "theorems": [
    "EDTF.C91_interval",
    "EDTF.C91_itself",
    "EDTF.C91_set",
    "EDTF.C91_alike",
    "EDTF.C91_single",
    "EDTF.C91_dots",
    "EDTF.C91_letter",
    "EDTF.C91_any",
    "EDTF.C91_qualifiers"
   ],
   "note": "C91_interval, C91_itself and C91_qualifiers are equivalences with exact exceptions; C91_set, C91_alike, C91_single, C91_dots cover sets, C91_letter the letter Y, C91_any components without digits."
  },
  {
   "property": "C92",
   "status": "proved",
   "theorems": [
    "EDTF.C92_bounded",
    "EDTF.C92_unbounded"
   ],
   "note": "All texts; the bound of 29 is attained (example beside C92_bounded), and for each of the four kinds C92_unbounded gives accepted texts beyond any length."
  },
  {
   "property": "C93",
   "status": "proved",
   "theorems": [
    "EDTF.C93_exact",
    "EDTF.C93_same"
   ],
   "note": "All texts; C93_exact is an equivalence for every accepted text and every text alike it."
  },
  {
   "property": "C94",
   "status": "proved",
   "theorems": [
    "EDTF.C94_inside",
    "EDTF.C94_every",
    "EDTF.C94_range",
    "EDTF.C94_compare",
    "EDTF.C94_compare_date",
    "EDTF.C94_order",
    "EDTF.C94_order_negative",
    "EDTF.C94_order_signs",
    "EDTF.C94_no_zone",
    "EDTF.C94_zones",
    "EDTF.C94_offset",
    "EDTF.C94_sign"
   ],
   "note": "All seconds, all texts and all zones; C94_sign says what a sign and an offset mean together, which is not what C07 asks for."
  },
  {
   "property": "C95",
   "status": "proved",
   "theorems": [
    "EDTF.C95_crossed",
    "EDTF.C95_sorted",
    "EDTF.C95_cycle",
    "EDTF.C95_backward",
    "EDTF.C95_forward",
    "EDTF.C95_single",
    "EDTF.C95_signed"
   ],
   "note": "All texts and all finite lists; the exceptions are proved as well."
  },
  {
   "property": "C96",
   "status": "proved",
   "theorems": [
    "EDTF.C96_outline",
    "EDTF.C96_used",
    "EDTF.C96_missing",
    "EDTF.C96_unnoticed",
    "EDTF.C96_swapped",
    "EDTF.C96_replaced",
    "EDTF.C96_unnoticed2"
   ],
   "note": "All texts over the named characters, all positions; the exceptions are proved to occur."
  },
  {
   "property": "C97",
   "status": "proved",
   "theorems": [
    "EDTF.C97_longer",
    "EDTF.C97_compare",
    "EDTF.C97_zero",
    "EDTF.C97_ten",
    "EDTF.C97_winter"
   ],
   "note": "Dates alone and intervals; three exceptions are stated as hypotheses and proved to be needed in every year."
  },
  {
   "property": "C98",
   "status": "proved",
   "theorems": [
    "EDTF.C98_moved",
    "EDTF.C98_accepted",
    "EDTF.C98_compare",
    "EDTF.C98_interval",
    "EDTF.C98_exceptions"
   ],
   "note": "For all texts with one year and all intervals; the exceptions are shown to occur (C98_exceptions)."
  },
  {
   "property": "C99",
   "status": "proved",
   "theorems": [
    "EDTF.C99_first_before",
    "EDTF.C99_first_after",
    "EDTF.C99_second_before",
    "EDTF.C99_second_after",
    "EDTF.C99_indistinct",
    "EDTF.C99_interval",
    "EDTF.C99_between",
    "EDTF.C99_set"
   ],
   "note": "for all accepted texts and all texts compared with them; the exceptions are exact"
  },
  {
   "property": "C100",
   "status": "proved",
   "theorems": [
    "EDTF.C100_days",
    "EDTF.C100_colon",
    "EDTF.C100_length",
    "EDTF.C100_before",
    "EDTF.C100_seconds",
    "EDTF.C100_times"
   ],
   "note": "Exact: the set of all pairs of a first and a last second that accepted texts have, with the seconds beyond the years -9999 to 9999 that offsets reach."
  },
  {
   "property": "C101",
   "status": "proved",
   "theorems": [
    "EDTF.C101_uncertain",
    "EDTF.C101_approximate",
    "EDTF.C101_same",
    "EDTF.C101_sides",
    "EDTF.C101_open",
    "EDTF.C101_unknown",
    "EDTF.C101_choice",
    "EDTF.C101_kinds",
    "EDTF.C101_unspecified",
    "EDTF.C101_precision"
   ],
   "note": "Exact: for every text, which marks its result has; the exceptions are characterised by the form of the text."
  },
  {
   "property": "C102",
   "status": "proved",
   "theorems": [
    "EDTF.C102_bytes",
    "EDTF.C102_parse",
    "EDTF.C102_broken",
    "EDTF.C102_matched",
    "EDTF.C102_panic",
    "EDTF.C102_compare",
    "EDTF.C102_first",
    "EDTF.C102_second",
    "EDTF.C102_third",
    "EDTF.C102_flags",
    "EDTF.C102_tools",
    "EDTF.C102_parse_tool",
    "EDTF.C102_match_tool",
    "EDTF.C102_wasi_tool"
   ],
   "note": "Bytes that are UTF-8 and bytes that are not are both covered exactly; for the single functions see C104 and C105."
  },
  {
   "property": "C103",
   "status": "proved",
   "theorems": [
    "EDTF.C103_moment",
    "EDTF.C103_exists",
    "EDTF.C103_normal",
    "EDTF.C103_same",
    "EDTF.C103_idem",
    "EDTF.C103_compare",
    "EDTF.C103_fixed"
   ],
   "note": "Texts with an open or unknown end have no normal form. The years -10000 and 10000, which only offsets lead to, are stated apart: there the text of the moment is refused."
  },
  {
   "property": "C104",
   "status": "proved",
   "theorems": [
    "EDTF.C104_matched",
    "EDTF.C104_tests",
    "EDTF.C104_utf8",
    "EDTF.C104_refused",
    "EDTF.C104_season",
    "EDTF.C104_season_only",
    "EDTF.C104_level1",
    "EDTF.C104_levels",
    "EDTF.C104_span",
    "EDTF.C104_broken_span",
    "EDTF.C104_ymd",
    "EDTF.C104_ymd_broken"
   ],
   "note": "Both kinds of bytes are covered exactly for the parsers and spans; for the helpers of days the accepted bytes are described here and the errors in C105."
  },
  {
   "property": "C105",
   "status": "proved",
   "theorems": [
    "EDTF.C105_number",
    "EDTF.C105_days",
    "EDTF.C105_ymd",
    "EDTF.C105_ymd_text"
   ],
   "note": "Covers every string of bytes with both values and errors."
  },
  {
   "property": "C106",
   "status": "proved",
   "theorems": [
    "EDTF.C106_kinds",
    "EDTF.C106_outcome",
    "EDTF.C106_value",
    "EDTF.C106_above",
    "EDTF.C106_form",
    "EDTF.C106_panic"
   ],
   "note": "Every string is an infinity, a number or one of which a described error is said, and only one of these (C106_kinds); what is returned (C106_outcome); the year a number gives, away from the 2^-49 below the next integer and with at most 42 digits after the point less the exponent (C106_value, C106_above); when a number cannot panic (C106_panic); agreement with the model of the parser (C106_form)."
  },
  {
   "property": "C107",
   "status": "proved",
   "theorems": [
    "EDTF.C107_instant",
    "EDTF.C107_instant_text",
    "EDTF.C107_broken",
    "EDTF.C107_utf8",
    "EDTF.C107_text_utf8"
   ],
   "note": "Outcome for every date and every string of bytes (C107_instant, C107_instant_text); bytes that are not UTF-8 are an error (C107_broken); agreement with the model on texts for UTF-8 (C107_utf8, C107_text_utf8)."
  },
  {
   "property": "C108",
   "status": "proved",
   "theorems": [
    "EDTF.C108_text",
    "EDTF.C108_decodes",
    "EDTF.C108_utf8",
    "EDTF.C108_same",
    "EDTF.C108_string",
    "EDTF.C108_roundtrip"
   ],
   "note": "All bytes are read as one text (C108_text); what is decoded (C108_decodes); agreement with the model on texts (C108_utf8); which bytes give the same date (C108_same); bytes between quotes (C108_string)."
  },
  {
   "property": "C109",
   "status": "proved",
   "theorems": [
    "EDTF.C109_unmarshal",
    "EDTF.C109_error",
    "EDTF.C109_roundtrip",
    "EDTF.C109_utf8"
   ],
   "note": "Outcome for every string of bytes, with the error text and the value left behind"
  },
  {
   "property": "C110",
   "status": "proved",
   "theorems": [
    "EDTF.C110_number",
    "EDTF.C110_printed",
    "EDTF.C110_year",
    "EDTF.C110_timestamp"
   ],
   "note": "The text of the error determines the bytes and can be printed"
  },
  {
   "property": "C111",
   "status": "partial",
   "theorems": [
    "EDTF.C111_shown_partial",
    "EDTF.C111_unrecognized_partial",
    "EDTF.C111_named_partial",
    "EDTF.C111_same_partial",
    "EDTF.C111_part_partial",
    "EDTF.C111_made_partial",
    "EDTF.C111_time_partial",
    "EDTF.C111_negation"
   ],
   "note": "The full statement is violated (C111_negation). Proved: errors that begin with Unrecognized show the whole string and determine it, for all bytes; errors that begin with parsing time determine the string, but for that of the winter that ends in 10000; errors of the types of errors.go name the whole string and determine it, unless the label is date or exponential notation; they name a part of it unless it begins with a minus sign, is a grouping or has an exponent or significant digits. Missing: which strings share each of the other errors."
  }
 ]
}