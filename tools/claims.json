{
 "C01": {
  "status": "proved",
  "note": "All existing dates of years 0000-9999."
 },
 "C02": {
  "status": "proved",
  "note": "All months of years 0000-9999."
 },
 "C03": {
  "status": "proved",
  "note": "All years 0000-9999."
 },
 "C04": {
  "status": "proved",
  "note": "Years -9999..-0000, all three precisions."
 },
 "C05": {
  "status": "proved",
  "note": "Positive and negative years; the error is a plain one."
 },
 "C06": {
  "status": "proved",
  "note": "All dates of years 0000-9999, all times of day, no zone, Z, ±hh and ±hh:mm (offsets up to 24:60); complete result record. C06_rejects and C06_needs_day: every other string of the pattern is an error."
 },
 "C07": {
  "status": "partial",
  "note": "Violated when the offset crosses a year boundary (C07_negation). C07_utc_partial: holds without zone or with Z. C07_offset_partial: with an offset the result is right exactly when the shifted reading stays in its year."
 },
 "C08": {
  "status": "proved",
  "note": "Any two existing level 0 dates; the complete result record."
 },
 "C09": {
  "status": "partial",
  "note": "Violated: C09_negation gives 2008/1964. C09_order_partial states exactly when an accepted interval is in order."
 },
 "C10": {
  "status": "proved",
  "note": "All strings."
 },
 "C100": {
  "status": "proved",
  "note": "Exact: the set of all pairs of a first and a last second that accepted texts have, with the seconds beyond the years -9999 to 9999 that offsets reach."
 },
 "C101": {
  "status": "proved",
  "note": "Exact: for every text, which marks its result has; the exceptions are characterised by the form of the text."
 },
 "C102": {
  "status": "proved",
  "note": "Bytes that are UTF-8 and bytes that are not are both covered exactly; for the single functions see C104 and C105."
 },
 "C103": {
  "status": "proved",
  "note": "Texts with an open or unknown end have no normal form. The years -10000 and 10000, which only offsets lead to, are stated apart: there the text of the moment is refused."
 },
 "C104": {
  "status": "proved",
  "note": "Both kinds of bytes are covered exactly for the parsers and spans; for the helpers of days the accepted bytes are described here and the errors in C105."
 },
 "C105": {
  "status": "proved",
  "note": "Covers every string of bytes with both values and errors."
 },
 "C106": {
  "status": "proved",
  "note": "Every string is an infinity, a number or one of which a described error is said, and only one of these (C106_kinds); what is returned (C106_outcome); the year a number gives, away from the 2^-49 below the next integer and with at most 42 digits after the point less the exponent (C106_value, C106_above); when a number cannot panic (C106_panic); agreement with the model of the parser (C106_form)."
 },
 "C107": {
  "status": "proved",
  "note": "Outcome for every date and every string of bytes (C107_instant, C107_instant_text); bytes that are not UTF-8 are an error (C107_broken); agreement with the model on texts for UTF-8 (C107_utf8, C107_text_utf8)."
 },
 "C108": {
  "status": "proved",
  "note": "All bytes are read as one text (C108_text); what is decoded (C108_decodes); agreement with the model on texts (C108_utf8); which bytes give the same date (C108_same); bytes between quotes (C108_string)."
 },
 "C109": {
  "status": "proved",
  "note": "Outcome for every string of bytes, with the error text and the value left behind"
 },
 "C11": {
  "status": "proved",
  "note": "All strings; C11_exception shows that the exception is needed."
 },
 "C110": {
  "status": "proved",
  "note": "The text of the error determines the bytes and can be printed"
 },
 "C111": {
  "status": "partial",
  "note": "The full statement is violated (C111_negation). Proved: errors that begin with Unrecognized show the whole string and determine it, for all bytes; errors that begin with parsing time determine the string, but for that of the winter that ends in 10000; errors of the types of errors.go name the whole string and determine it, unless the label is date or exponential notation; they name a part of it unless it begins with a minus sign, is a grouping or has an exponent or significant digits. Missing: which strings share each of the other errors."
 },
 "C12": {
  "status": "proved",
  "note": "All strings."
 },
 "C13": {
  "status": "partial",
  "note": "Violated: C13_negation. C13_level0_partial: holds for all level 0 strings. C13_exact_partial: a valid string is understood exactly unless it is in the list of refused strings of C62 (with a plain or invalid error) or of panics of C63."
 },
 "C14": {
  "status": "proved",
  "note": "All strings."
 },
 "C15": {
  "status": "partial",
  "note": "Violated: C15_negation. Exact for significant digits (C15_sig_partial); every crashing string is one of these or an exponential year of at least 2^63 (C15_only_partial); exponential years do not crash while bits + 4*exponent < 2^31-1 (C15_exp_partial), C23_panic_partial has ones that do. C63_panic is exact for all strings. Missing: the property itself, which the code does not satisfy."
 },
 "C16": {
  "status": "partial",
  "note": "Proved in full for years (C16_year_partial). Violated for dates with a month or day: the season pattern captures them; C16_month_or_day_partial gives the exact result (the whole month, no flags; an error for years -999..-1) and C16_negation two witnesses."
 },
 "C17": {
  "status": "partial",
  "note": "'../D' and '/D' proved for every date; 'D/..' and 'D/' for years. Violated for a month or day before the slash (taken as a season): exact result in C17_end_month_or_day_partial, witness in C17_negation."
 },
 "C18": {
  "status": "partial",
  "note": "Text form proved in full. Numeric form exact for every year -9999..9999 (C18_numeric_partial): holds except winter of -1000 (C18_negation), an error; years -999..-1 and winter of 9999 are errors."
 },
 "C19": {
  "status": "partial",
  "note": "Months of the grouping proved for every code and year, except that December-to-February groupings of 0000-0998 and 9999 are shown to be errors (the code writes the next year unpadded)."
 },
 "C20": {
  "status": "partial",
  "note": "Violated for months written \"0X\", which the code takes as October to December (C20_negation: 1984-0X excludes January). C20_exact_partial: all readings are inside exactly unless the month is \"0X\" and the day is not \"00\". The theorems cover every date of four year characters and two-character month and day, each a digit or X."
 },
 "C21": {
  "status": "partial",
  "note": "Violated: C21_negation (1985-12-1X is not tight and 1984-XX-00 parses without having a reading). C21_exact_partial: tight exactly unless the month is \"0X\", or the day \"00\", or year and month are in digits and the first or last day of the month is not a reading."
 },
 "C22": {
  "status": "proved",
  "note": "Four digits: the complete result record; any longer digit string: unsupported; one to three digits: invalid. With and without a minus sign."
 },
 "C23": {
  "status": "partial",
  "note": "Violated above 2^63: C23_negation (2^64+2000 is read as the year 2000), C23_wrap_partial. Proved: exact year for 1000 <= m*10^e <= 9999 (C23_year_partial), unsupported from 10000 to below 2^63 (C23_unsupported_partial), error for absolute values below 1000 (C23_small_partial), never a date from 2^78 (C23_huge_partial); C23_panic_partial gives the inputs that crash."
 },
 "C24": {
  "status": "partial",
  "note": "The code cuts n digits from the right instead of keeping n from the left, so the documented meaning holds only for n = 2 (C24_two_partial) and fails for every year from 1000 and n = 1, 3, 4 (C24_fails). C24_actual_partial gives the exact result for every year of at least 1000 in absolute value; C24_short_partial, C24_large_partial, C24_minus_partial and C24_panic_partial cover the remaining years and numbers. Missing: the property itself, which the code does not satisfy."
 },
 "C25": {
  "status": "partial",
  "note": "Violated: C25_negation. C25_text_order_partial gives the bounds of every closed set. C25_lower_exact_partial: the lower bound is right exactly if the members before year 0 are all of one year; C25_upper_exact_partial says exactly when the upper bound is right (both without the year -0000)."
 },
 "C26": {
  "status": "partial",
  "note": "Violated for sets open on both sides: C26_negation. All other sets of level 0 dates are covered: closed, one side open, single dates."
 },
 "C27": {
  "status": "partial",
  "note": "Full result proved for years 0000-9999 with right qualifiers at least one of which is before the last component, and the converse (C27_only_partial). A qualifier after the last component only is C16: for months and days the code drops it (C27_negation). Negative years are shown to be errors."
 },
 "C28": {
  "status": "proved",
  "note": "Full result for years 0000-9999 and every combination of left qualifiers, with the converse; negative years and texts mixing left and right qualifiers are shown to be errors."
 },
 "C29": {
  "status": "proved",
  "note": "Endpoints are dates of four year characters and two-character month and day (digits or X, optional sign) with qualifiers on the left, which is exactly what the Level 2 interval pattern accepts (C29_only); endpoints qualified on the right are rejected (C29_right). C29_alone: the start range depends on A only and the end range on B only. C29_ranges: flags are the qualifiers written, bounds the first and last reading (month \"0X\" and day \"00\" excepted, see C20 and C21). C29_digits: intervals of existing dates in digits always parse."
 },
 "C30": {
  "status": "proved",
  "note": "Both literals, and no other string has level -1."
 },
 "C31": {
  "status": "proved",
  "note": "All strings."
 },
 "C32": {
  "status": "partial",
  "note": "Violated: C32_negation. Proved for all strings but sets with an open side (C32_order_partial). C32_sets_written_partial: a set of existing dates is in order exactly unless one side is open and the member written last is over before the one written first begins; C32_sets_exact_partial: without -0000, exactly unless one side is open and its members are before year 0 and not all of one year."
 },
 "C33": {
  "status": "proved",
  "note": "All strings."
 },
 "C34": {
  "status": "proved",
  "note": "All dates with bounds; also for the functions on strings."
 },
 "C35": {
  "status": "partial",
  "note": "Violated: C35_negation (an instant is before and after itself). C35_self states exactly when; the partial theorems cover dates that last."
 },
 "C36": {
  "status": "proved",
  "note": "The hypothesis of the statement (not ending before starting) is shown necessary in C36_needs_order."
 },
 "C37": {
  "status": "proved",
  "note": "All parsable strings with bounds; open cessation; open date."
 },
 "C38": {
  "status": "proved",
  "note": "All strings; nesting for every existing calendar date."
 },
 "C39": {
  "status": "proved",
  "note": "All 64-bit years and all months; also what the out-of-range months 0 and above 12 give."
 },
 "C40": {
  "status": "proved",
  "note": "All texts of digits and dashes; the complete table for two-digit months and days (C40_table), years and year-months alone, and YMD.Equals; C40_signed_day and C40_negative_year show where the function departs outside that domain."
 },
 "C41": {
  "status": "proved",
  "note": "All pairs of 32-bit flag sets; the nine named non-zero precisions."
 },
 "C42": {
  "status": "proved",
  "note": "Round trip for every date whose integers are 64-bit, hence for every parsed date; the timestamp member is present exactly when there is a timestamp; the texts are also given literally. encoding/json is modelled (escapes, numbers, null, omitempty, case-insensitive names); strings are valid Unicode."
 },
 "C43": {
  "status": "partial",
  "note": "Violated: C43_negation (NotSet makes a NotImplemented error). The other four kinds correspond exactly."
 },
 "C44": {
  "status": "proved",
  "note": "All strings."
 },
 "C45": {
  "status": "partial",
  "note": "Round trip proved for all 64-bit integers. The accepted language is characterised exactly (C45_accepts); it is larger than stated, see C45_negation."
 },
 "C46": {
  "status": "partial",
  "note": "Years in digits report YEAR and years with unspecified digits DECADE, CENTURY or MILLENIUM, as stated. Months and days in digits always report YEAR, so the statement is false for them (C46_negation, for every such date). C46_unspecified_partial gives the precision reported for every other date with unspecified digits."
 },
 "C47": {
  "status": "proved",
  "note": "All 64-bit years but the smallest (which no parser produces); every instant."
 },
 "C48": {
  "status": "partial",
  "note": "Violated: the function returns true for every string."
 },
 "C49": {
  "status": "partial",
  "note": "Violated (C49_negation). C49_exact_partial characterises the accepted strings exactly: only the beginning is anchored for numbers and only the end for names."
 },
 "C50": {
  "status": "partial",
  "note": "Violated: C50_negation. C50_exact_partial characterises exactly what is recognised."
 },
 "C51": {
  "status": "partial",
  "note": "Proved for argument lists whose first argument is not taken for a flag, and for all lists after \"--\". False as stated: the standard flag package takes a first argument such as \"-1985\" for a flag (status 2, C51_negative_years), and \"-h\" succeeds (C51_negation). A failing run never prints a JSON text (C51_failure)."
 },
 "C52": {
  "status": "proved",
  "note": "All argument lists whose first argument is not taken for a flag."
 },
 "C53": {
  "status": "proved",
  "note": "All argument lists whose first argument is not taken for a flag. The text of an error is the one of C79."
 },
 "C54": {
  "status": "proved",
  "note": "C54_language: both directions, all strings, with every side condition in Spec.Accepted."
 },
 "C55": {
  "status": "proved",
  "note": "Both directions for every string; the specification Denotes is in SpecDenote.lean and uses only the written forms and the calendar."
 },
 "C56": {
  "status": "partial",
  "note": "Violated as stated: flags are compared by a common bit or not at all, the instant 0 and the empty text are not compared. The verdict on every parsed date is characterised exactly."
 },
 "C57": {
  "status": "partial",
  "note": "Violated as stated: the reason of a rejection is a number, and some calls end the program. All three outcomes are characterised exactly, with the text that is written (C79)."
 },
 "C58": {
  "status": "proved",
  "note": "Each test is compared with a description of the written form that mentions no pattern."
 },
 "C59": {
  "status": "proved",
  "note": "Each test is compared with a description of the written form that mentions no pattern. IsSeason and IsExtendedInterval are C49 and C48."
 },
 "C60": {
  "status": "proved",
  "note": "Each test is compared with a description of the written form that mentions no pattern. IsSetRepresentation is C50."
 },
 "C61": {
  "status": "partial",
  "note": "Level 0 is exact. Violated at Levels 1 and 2 (C61_negation); the partial theorems characterise what they accept exactly."
 },
 "C62": {
  "status": "proved",
  "note": "C62_error: both directions, all strings; Spec.Fails gives the kind, the label and the quoted text of each error. C62_unique."
 },
 "C63": {
  "status": "proved",
  "note": "C63_panic: both directions, all strings. C63_three: accepted, failing and panicking strings cover all strings and do not overlap. The roundings of math/big are in Spec.Pow5 and Spec.Rounds."
 },
 "C64": {
  "status": "proved",
  "note": "Exact in both directions for all strings: SpanText and SpanFails."
 },
 "C65": {
  "status": "proved",
  "note": "All feature parsers and the parsers of the three levels, all strings; five of them by agreement with ParseString, whose outcomes C54, C55, C62 and C63 determine."
 },
 "C66": {
  "status": "proved",
  "note": "All strings, for the parser and the three levels."
 },
 "C67": {
  "status": "proved",
  "note": "For every pair and triple of strings the outcome is that of the specification, in both directions."
 },
 "C68": {
  "status": "proved",
  "note": "Both directions for all strings."
 },
 "C69": {
  "status": "proved",
  "note": "All integers and texts, both directions; instants are whole seconds, fractions are dropped."
 },
 "C70": {
  "status": "proved",
  "note": "All texts, both directions, with the error of every rejected text."
 },
 "C71": {
  "status": "proved",
  "note": "Both directions for all texts, with uniqueness."
 },
 "C72": {
  "status": "proved",
  "note": "Both directions for all texts."
 },
 "C73": {
  "status": "proved",
  "note": "Equality of texts for every record."
 },
 "C74": {
  "status": "proved",
  "note": "Both directions for all argument lists, with the texts of error messages (C79)."
 },
 "C75": {
  "status": "proved",
  "note": "Both directions for all records whose timestamps are 64-bit numbers, as their type demands."
 },
 "C76": {
  "status": "proved",
  "note": "All expressions over ASCII classes (every pattern of the package, C76_ascii) and all texts, both directions."
 },
 "C77": {
  "status": "proved",
  "note": "All errors with a text and all records; the texts of plain and wrapped errors are not modelled."
 },
 "C78": {
  "status": "proved",
  "note": "C78_alphabet, C78_foreign, C78_rest for every string; C78_utf8, C78_bytes, C78_read for every sequence of bytes (Go's reading of UTF-8 is modelled in Utf8.lean). The exported ParseSeason is not the parser: its pattern has open ends, and it reads a season followed by anything (C65_season)."
 },
 "C79": {
  "status": "proved",
  "note": "C79_forget, C79_date, C79_time, C79_plain, C79_text, C79_unique. Message.lean repeats the parser with the texts of errors; C79_forget says that without the texts it is the parser. The messages of strconv, time and math/big are part of the model of these packages."
 },
 "C80": {
  "status": "proved",
  "note": "C80_run, C80_parse, C80_match, C80_wasi: both directions for all argument lists."
 },
 "C81": {
  "status": "proved",
  "note": "All strings: the error text of IsAfter, IsBefore, IsBetween, DeriveRanges and ReplaceDeprecated, and that the functions with texts are the functions."
 },
 "C82": {
  "status": "proved",
  "note": "C82_inside, C82_apart and C82_same read the relation of two dates off their texts; C82_tiles, C82_parts and C82_next say that the written years, months and days cover every second exactly once; C82_order, C82_order_negative and C82_compare relate text order, time order and the comparisons."
 },
 "C83": {
  "status": "proved",
  "note": "For every expectation and every date with boundaries as the parser makes them, also with missing pointers: the outcome and its text are those of the first wrong thing in the order of the checks."
 },
 "C84": {
  "status": "proved",
  "note": "The text of the error of DateSpanFromEDTF and of every exported parser called directly is characterised for every string; the twins with texts forget to the functions of C65."
 },
 "C85": {
  "status": "proved",
  "note": "The text of the error of every helper for years, months, days, instants and ranges called directly is characterised for all arguments (years of 64 bits)."
 },
 "C86": {
  "status": "proved",
  "note": "How the server starts is characterised for all lists of arguments, up to the call that listens."
 },
 "C87": {
  "status": "proved",
  "note": "equivalences for all expressions of the specification; the README's claim of Levels 1 and 2 is refuted"
 },
 "C88": {
  "status": "proved",
  "note": "The page is modelled from index.html and index.js on top of the model of cmd/parse-wasm. JSON.parse and JSON.stringify are modelled for documents without repeated or numeric names and with integers up to 2^53; C88_nothing shows that no other document arises."
 },
 "C89": {
  "status": "partial",
  "note": "The code violates the full statement: C89_labels_partial gives the exact strings (Unnamed) for which a label does not name its range, and proves the statement for all others; C89_negation has one of each kind."
 },
 "C90": {
  "status": "proved",
  "note": "C90_answers: the answer of the model is the one of the relation, for every target that begins with a slash and every set of programs. C90_contained: only embedded files. C90_ends: at most four redirections (plain paths). C90_page, C90_parts: the page and its parts."
 },
 "C91": {
  "status": "proved",
  "note": "C91_interval, C91_itself and C91_qualifiers are equivalences with exact exceptions; C91_set, C91_alike, C91_single, C91_dots cover sets, C91_letter the letter Y, C91_any components without digits."
 },
 "C92": {
  "status": "proved",
  "note": "All texts; the bound of 29 is attained (example beside C92_bounded), and for each of the four kinds C92_unbounded gives accepted texts beyond any length."
 },
 "C93": {
  "status": "proved",
  "note": "All texts; C93_exact is an equivalence for every accepted text and every text alike it."
 },
 "C94": {
  "status": "proved",
  "note": "All seconds, all texts and all zones; C94_sign says what a sign and an offset mean together, which is not what C07 asks for."
 },
 "C95": {
  "status": "proved",
  "note": "All texts and all finite lists; the exceptions are proved as well."
 },
 "C96": {
  "status": "proved",
  "note": "All texts over the named characters, all positions; the exceptions are proved to occur."
 },
 "C97": {
  "status": "proved",
  "note": "Dates alone and intervals; three exceptions are stated as hypotheses and proved to be needed in every year."
 },
 "C98": {
  "status": "proved",
  "note": "For all texts with one year and all intervals; the exceptions are shown to occur (C98_exceptions)."
 },
 "C99": {
  "status": "proved",
  "note": "for all accepted texts and all texts compared with them; the exceptions are exact"
 }
}